import Verif.Model.Checkpoint
import Verif.Model.Network
import Verif.Lemmas.FastHash
import Verif.Lemmas.StoreSave
/-
The checkpoint of the main network, evaluated.
-/
namespace Verif.Checkpoint
open Verif.Header Verif.HeaderHash Verif.Chain Verif.Store Verif.Spec Verif.Spec.BlockHash Verif.Fast

attribute [local irreducible] blockHash fhash HeaderHash.hashed

theorem hashed_hdrOf (al : Bool × Bool) (X : Nat) : hashed al (hdrOf X) = blockHash (hdrOf X) := by
  have hw := hdrOf_wf X
  have e := (cache_ok al al (hdrOf X)).1
  rw [cache_eq al _ hw.prevBlock hw.nameRoot hw.mask] at e
  exact (Out.ok.inj e).symm

/-- The target of a header. -/
def targetOf (X : Nat) : Bytes := (powToTarget (hdrOf X).bits).getD []

/-- The entries of the headers from height `h` on, above work `w`. -/
def entries (al : Bool × Bool) : Nat → Nat → List Nat → List Entry
  | _, _, [] => []
  | w, h, X :: Xs =>
    ⟨hdrOf X, hashed al (hdrOf X), h, beBytes 32 (w + Difficulty.work (beNat (targetOf X)))⟩ ::
      entries al (w + Difficulty.work (beNat (targetOf X))) (h + 1) Xs

/-- The headers follow each other from the hash `prev`; their hashes differ from each other and from those
seen. -/
noncomputable def good (prev w : Nat) (seen Xs : List Nat) : Bool :=
  @List.rec Nat (fun _ => Nat → Nat → List Nat → Bool) (fun _ _ _ => true)
    (fun X _ ih prev w seen => force X fun X =>
      Nat.beq (Nat.mod (Nat.shiftRight X 96) 115792089237316195423570985008687907853269984665640564039457584007913129639936) prev &&
      (Nat.ble (Nat.mod (Nat.shiftRight X 32) 18446744073709551616) 9223372036854775807 &&
      match powToTarget (Nat.mod (Nat.shiftRight X 1600) 4294967296) with
      | none => false
      | some t => fhash X fun h => seen.all (fun x => !Nat.beq x h) &&
          force (Nat.add w (Nat.mod (Nat.div 115792089237316195423570985008687907853269984665640564039457584007913129639936 (Nat.succ (leNat t.reverse))) 115792089237316195423570985008687907853269984665640564039457584007913129639936)) fun w' =>
            Nat.ble w' 115792089237316195423570985008687907853269984665640564039457584007913129639935 && ih h w' (h :: seen))) Xs prev w seen

theorem good_cons (prev w : Nat) (seen : List Nat) (X : Nat) (Xs : List Nat) : good prev w seen (X :: Xs) =
    (Nat.beq (Nat.mod (Nat.shiftRight X 96) 115792089237316195423570985008687907853269984665640564039457584007913129639936) prev &&
      (Nat.ble (Nat.mod (Nat.shiftRight X 32) 18446744073709551616) 9223372036854775807 &&
      match powToTarget (Nat.mod (Nat.shiftRight X 1600) 4294967296) with
      | none => false
      | some t => fhash X fun h => seen.all (fun x => !Nat.beq x h) &&
          force (Nat.add w (Nat.mod (Nat.div 115792089237316195423570985008687907853269984665640564039457584007913129639936 (Nat.succ (leNat t.reverse))) 115792089237316195423570985008687907853269984665640564039457584007913129639936)) fun w' =>
            Nat.ble w' 115792089237316195423570985008687907853269984665640564039457584007913129639935 && good h w' (h :: seen) Xs)) := by
  unfold good
  dsimp only
  rw [force_eq]

theorem good_spec (al : Bool × Bool) : ∀ (Xs : List Nat) (prev w : Nat) (seen : List Nat) (h : Nat), good prev w seen Xs = true → w < 2 ^ 256 →
    Chained (hashed al) ⟨some (leBytes 32 prev), beBytes 32 w⟩ h (entries al w h Xs) ∧
    (∀ e ∈ entries al w h Xs, e.hdr.time < 2 ^ 63 ∧ leNat e.hash ∉ seen ∧ w ≤ beNat e.work) ∧
    (∀ a ∈ entries al w h Xs, ∀ b ∈ entries al w h Xs, a.hash = b.hash → a = b) ∧
    (∀ e ∈ entries al w h Xs, ∀ l, (entries al w h Xs).getLast? = some l → beNat e.work ≤ beNat l.work)
  | [], _, _, _, _, _, _ => ⟨.nil, by simp [entries], by simp [entries], by simp [entries]⟩
  | X :: Xs, prev, w, seen, h, hg, hw => by
    rw [good_cons, Bool.and_eq_true, Bool.and_eq_true] at hg
    obtain ⟨g1, g2, g3⟩ := hg
    have g1 : X / 2 ^ 96 % 2 ^ 256 = prev := by
      have := Nat.eq_of_beq_eq_true g1
      rw [← this, ← Nat.shiftRight_eq_div_pow]; rfl
    have g2 : (hdrOf X).time < 2 ^ 63 := by
      have : X >>> 32 % 2 ^ 64 ≤ 9223372036854775807 := Nat.le_of_ble_eq_true g2
      unfold hdrOf; dsimp only
      rw [← Nat.shiftRight_eq_div_pow]; omega
    have hb : Nat.mod (Nat.shiftRight X 1600) 4294967296 = (hdrOf X).bits := by
      unfold hdrOf; dsimp only
      rw [← Nat.shiftRight_eq_div_pow]; rfl
    rw [hb] at g3
    cases ht : powToTarget (hdrOf X).bits with
    | none => rw [ht] at g3; cases g3
    | some t =>
      rw [ht] at g3
      dsimp only at g3
      rw [fhash_eq, Bool.and_eq_true, force_eq, Bool.and_eq_true] at g3
      obtain ⟨g4, g5, g6⟩ := g3
      have htx : targetOf X = t := by unfold targetOf; rw [ht]; rfl
      have hwk : Nat.add w (Nat.mod (Nat.div 115792089237316195423570985008687907853269984665640564039457584007913129639936 (Nat.succ (leNat t.reverse))) 115792089237316195423570985008687907853269984665640564039457584007913129639936) =
          w + Difficulty.work (beNat (targetOf X)) := by rw [htx]; rfl
      rw [hwk] at g5 g6
      have g5 : w + Difficulty.work (beNat (targetOf X)) < 2 ^ 256 := Nat.lt_succ_of_le (Nat.le_of_ble_eq_true g5)
      obtain ⟨i1, i2, i3, i4⟩ := good_spec al Xs _ _ _ (h + 1) g6 g5
      have hl : (blockHash (hdrOf X)).length = 32 := by rw [← hashed_hdrOf al]; exact (cache_ok al al _).2
      have hh : leBytes 32 (leNat (blockHash (hdrOf X))) = hashed al (hdrOf X) := by rw [hashed_hdrOf, ← hl, leBytes_leNat]
      have g4 : leNat (hashed al (hdrOf X)) ∉ seen := by
        rw [hashed_hdrOf]
        intro hm
        have := List.all_eq_true.1 g4 _ hm
        simp at this
      have hbe : beNat (beBytes 32 (w + Difficulty.work (beNat (targetOf X)))) = w + Difficulty.work (beNat (targetOf X)) := by
        rw [beNat_beBytes, Nat.mod_eq_of_lt (by exact g5)]
      obtain ⟨v, v1, v2, v3⟩ := calcWork_some (p := beBytes 32 w) ht (by simp)
      rw [beNat_beBytes, Nat.mod_eq_of_lt (show w < 256 ^ 32 from hw), ← htx, Nat.mod_eq_of_lt g5] at v3
      have hv : v = beBytes 32 (w + Difficulty.work (beNat (targetOf X))) := by
        rw [← v3, ← v2]; simp
      rw [hv] at v1
      rw [entries]
      refine ⟨.cons rfl rfl (hdrOf_wf X) (by simp) ?_ v1 ?_, ?_, ?_, ?_⟩
      · intro x hx
        cases Option.mem_some.1 hx
        show leBytes 32 prev = leBytes 32 (X / 2 ^ 96)
        rw [← g1]; exact leBytes_mod 32 _
      · dsimp only
        rw [hh] at i1
        exact i1
      · intro e he
        rcases List.mem_cons.1 he with rfl | he
        · exact ⟨g2, g4, by rw [hbe]; exact Nat.le_add_right _ _⟩
        · obtain ⟨j1, j2, j3⟩ := i2 e he
          exact ⟨j1, fun hm => j2 (List.mem_cons_of_mem _ hm), by omega⟩
      · intro a ha b hb hab
        have hx : ∀ e ∈ entries al (w + Difficulty.work (beNat (targetOf X))) (h + 1) Xs, e.hash ≠ hashed al (hdrOf X) := by
          intro e he heq
          apply (i2 e he).2.1
          rw [heq, hashed_hdrOf]
          exact List.mem_cons_self
        rcases List.mem_cons.1 ha with rfl | ha <;> rcases List.mem_cons.1 hb with rfl | hb
        · rfl
        · exact absurd hab.symm (hx b hb)
        · exact absurd hab (hx a ha)
        · exact i3 a ha b hb hab
      · intro e he l hl'
        cases hes : entries al (w + Difficulty.work (beNat (targetOf X))) (h + 1) Xs with
        | nil =>
          rw [hes] at hl' he
          simp at hl' he
          rw [← hl', he]
        | cons y ys =>
          rw [hes, List.getLast?_cons_cons, ← hes] at hl'
          rcases List.mem_cons.1 he with rfl | he
          · dsimp only
            rw [hbe]
            exact (i2 l (List.mem_of_getLast? hl')).2.2
          · exact i4 e he l hl'

theorem entries_length (al : Bool × Bool) : ∀ (Xs : List Nat) (w h : Nat), (entries al w h Xs).length = Xs.length
  | [], _, _ => rfl
  | X :: Xs, w, h => by rw [entries, List.length_cons, entries_length al Xs, List.length_cons]

theorem entries_bytes (al : Bool × Bool) : ∀ (Xs : List Nat) (w h : Nat), (entries al w h Xs).flatMap (fun e => write e.hdr) = Xs.flatMap (leBytes 236)
  | [], _, _ => rfl
  | X :: Xs, w, h => by rw [entries, List.flatMap_cons, List.flatMap_cons, entries_bytes al Xs, write_hdrOf]

/-- The hash of the header at height 135999, which the first header names. -/
def below : Bytes := beBytes 32 0x219d06b052f4ce515f48f379a3f6c5425476cc8381931f7dd

/-- The work of the chain up to it. -/
def workBelow : Nat := 0x64c9917a744a0f213daa

/-- The hash of the genesis block of the main network. -/
def genesisHash : Bytes := beBytes 32 0x5b6ef2d3c1f3cdcadfd9a030ba1811efdd17740f14e166489760741d075992e0

/-- A header on top of the first one, with no more in it than its time and the least difficulty that can be
written down. -/
def evil : Nat := 0x207fffff0000000000000000000000000000000000000000000000000000000000000000000000000000000000000000000000000000000000000000000000000000000000000000000000000000000000000000000000000000000000000000000000000000000000000000000000000000000000000000000000000000000000000000000000000000000000000000000000000000000000000000000000008729c35e145ffd5a4e9bb6b547ce99db779922ecc9d17bf30100000000000000000000006312df4a00000000

/-- Its hash. -/
def evilHash : Bytes := beBytes 32 0x061b6298b6878520841d2ccf1b4b7e821efe6c3dbf1f09688fb464712aed2087

/-- Hashes that none of the headers has. -/
def apart : List Nat := [leNat below, 0, leNat genesisHash, leNat evilHash]

/-- The hashes of the headers, as little-endian numbers. -/
def hashes : List Nat :=
  [0x8729c35e145ffd5a4e9bb6b547ce99db779922ecc9d17bf30100000000000000,
   0xbbe3634e00ab758644c839812b8e5bb7df3cdd30515572e10200000000000000,
   0xa6231829f751a8a5a81396e7a8aae66a2eaff8a7635ea2f60200000000000000,
   0xe05867d9f381ef3b51f67d0348879d631d2723da99ddea090000000000000000,
   0x24f34dbbbf13ce8b678fbdea65f989a6b0439b0e6e4a10450000000000000000,
   0x7235e0d91d32cca802424de20204784596173f9ce1b9383d0000000000000000,
   0x65127ea3373778f363d67788186867c5fa751731e15dcfca0200000000000000,
   0x89aee5b5306f282af632f5ede717b9fb2fa140dcb37025bb0000000000000000,
   0x6134018f943d32b8639f009c1b5da770e077f0b172d2987e0200000000000000,
   0x4fe4180365e2792e324650c8f84da7a67fddd94313272dfb0200000000000000,
   0xa78edabb5d8dfcaf658adabf7e46c7bab40200d6ad17606a0000000000000000,
   0x2a014cbff62f10006fa4f9616ea6d7a16b00ad7d538f1e5b0100000000000000,
   0x5108b92e7febb1159c15fb05cf502de0b936081b2e258d120200000000000000,
   0xe7900fb4d135cfaa62d9482b3a8e1a5c021a2608d16fab4f0100000000000000,
   0x696e8cde4a8d2ffa08c38f6af3dc32b10269c5199126b25a0400000000000000,
   0x3d088ed937d09bf9bc5486e3766f0c30d5135d657554f6f70100000000000000,
   0x867e5a2f4bb13d5c7c196633b4df5652154b119f79bf229d0400000000000000,
   0x06d7de3a03e921dfbf65e6868871f102bebb1b86cf3789280100000000000000,
   0x84979b59117851408484b714d6855df16e60006f80259a420300000000000000,
   0x882f459d4f6fcca06584ee204bcdaedb03658aa50df1496c0100000000000000,
   0xbe0ed36d424820bc21dc93b53e539a15611218e00d4352120100000000000000,
   0x07ee4f29e77793c424054e2bfc8a43f27a3422167cfcfbb50000000000000000,
   0x216e78be1ab5765318139358b935a9c1d2ec6b11276ab22e0300000000000000,
   0x4132820a569e30c0cffa567f26d2205c709c7881bd4b9ee90000000000000000,
   0x256f70d1460dab4f593707dc72fb180e140e364a24251c330400000000000000,
   0x9339236869367664de8f8dd272d369f91787305ceb3efa650200000000000000,
   0xdfa55ea462a5c58679f98a5207e02a1bb999225fbfaf69690100000000000000,
   0xcd6addaddf3ed87bd89e5b224d16d4245b2f5ec657f352a20000000000000000,
   0x7ecd5699e52edc96841c201c4afce528832ec887189c1bb10000000000000000,
   0xec7ff9a7b6f70909606b784530b53b7a10070c31b29af3fd0100000000000000,
   0xbc119a609ee95c74a62f23f15dac27e2f9975723d9677bfd0200000000000000,
   0xf40511221162526283c7e6e80642eb16d70eeac4778ca8db0300000000000000,
   0x86754c00af794946d1d813e8dda27c026b31bbd6c2bf4f260100000000000000,
   0xff2b03f464ae21428e2fd43f975300564c5c245f9a546dd00200000000000000,
   0x1801dbdfa7971b94afb86dc9d13656e650710bb0cdd2de1b0400000000000000,
   0x40788accdf102616254fc118393a20705878cbb1a69547860100000000000000,
   0xe69e8c8c85d7e9456d0bb71d46d0c37a649ea33d017cb9320000000000000000,
   0x3411353e57d98bb7b4190289dc61491728cfe46d4c9a25ab0000000000000000,
   0xedebcd5a9e15abeced6e9e9843490c6f2f9bffb1e82165610200000000000000,
   0x2410ba31a9e3134094235745e54b3099513b846616a6d6470100000000000000,
   0xfeabd106de142064dd9d3796a867a73d75f82ed8442171320400000000000000,
   0x0f5917913908c20740b86c1c426ac2e2c577633b5b4982d50000000000000000,
   0x0723bbe1b79467c24d3730c1eff6d1bbc2cec0b5813ad37e0100000000000000,
   0x6d08f6a94f95ce35eb57fdb631f763ebd16f02b36dcf44840200000000000000,
   0x855423510295d571fafab1d8487ea1e4bf25d8d48caaf5c60300000000000000,
   0x816af2f747b362cafc130ba788e6cb6650fd012fc79a876c0400000000000000,
   0x239f9a1b20cadf57999f731784170b62706abf630364d7740300000000000000,
   0x136363ef861701d9576b0d90dec1559eca8a534e2015264d0000000000000000,
   0x902aa5f90655b69231c15d4b4f29f541023eeade738d74210400000000000000,
   0xc0d88407fae89c1dd4027b2b03ad1cc0df9703ca4c8818b50000000000000000,
   0xf81dc80856b836fda875546501e52c00fd67aa60cbc640880400000000000000,
   0x809bbbc15e84d8f8b4e9803d9512e91d38d7be08f83ea78e0200000000000000,
   0x0228cc5cf86226322c846ead1070fe28401d2cf128183ca00100000000000000,
   0xb44a0b744fb14e5591482f40fa0bba0033c1237ee54689f50300000000000000,
   0x6d62709435fd160f5e30942ad644b611e922c7d509fefd4a0000000000000000,
   0xe125c8db025dfdfbf9851418d1bde8bf568ef0b843f404980100000000000000,
   0xe1ef92c922efa9abb9f45ac38ef6748c765953cec6c4edf40100000000000000,
   0xc1b203a74dfa838a3855a8d0907a6593c2e69c5bc5c377890100000000000000,
   0x14e0c710dcb72552164fb49f50e75c23d46386044c41ec160300000000000000,
   0x48ca5f7ca72a672b95589a7d4ab0ccf7067cb2c73e756a4e0100000000000000,
   0xb7b9c4ab7361485e3ed60485037b830c3c1de532043292f20300000000000000,
   0x325ae887f138971d8e7badf442bb28694eab99c9e6b730c50300000000000000,
   0x0077b396ddaf2be774b9dbb15c2f1e479056d2b2b85d9c190300000000000000,
   0x983914967880749f014f289713640581c6e4c2b25eeb0c870100000000000000,
   0x4f8e4312813092d5557750abc832f341b812457c1d5d5a170300000000000000,
   0xe2065ce0c43346c8b0a595487e6de36a0654b112d548be7f0400000000000000,
   0x617745761361794b36a78b6b4d5d80a95b7bd326bca0f2f70000000000000000,
   0x7e0be8ee556aceb65549ba752de8b916dd09c6208d338f900300000000000000,
   0x3fbe716777bec99d494e98072881e11ebb0cd7715732a2e50000000000000000,
   0x2bcdf70866058fbd9154f2ace20fb0ffcbf8cf1539c92b6d0300000000000000,
   0x29603b8811ec3254783f2cd860ee65776f84508452d238170200000000000000,
   0xcbde7af94e81ff94f86f90cab105922c9951aa4b3302a12d0400000000000000,
   0xfd15aab65762acc8d7ffa946872819da2676b1b5f1df13c10200000000000000,
   0x7277abb93501edf2aa6bea2249df307d5f46dc68cd59b6d60100000000000000,
   0xc5eacf3f1d7d136e6f05ee964516d66b027a976d1e9782ce0100000000000000,
   0x3ca72cd43ba87289840d81f423a67994b00e6af8104102ed0300000000000000,
   0x30a6cad6eb0d546e5cab2b00e47d5c8be1307d1d7f0d66b90300000000000000,
   0x07a636adca8b9cd4f0d8a261aadfaeaa922c8d33a202ff610200000000000000,
   0x5a6038c017cc87ec65b6f87b2cc2c01cc421a9078c0995820200000000000000,
   0x1149c987fd2d95a944192079b0344b7508c2e092158a7a1b0300000000000000,
   0xc8a23f79013cbe0d940bb429d52dba0a1b4f62a9f30241b10300000000000000,
   0xf79eb10076dcafaa626203182dfa19a30633ff4bfad1eb400300000000000000,
   0x511de100ae8d1d6b5006838390dd613beaea56c00fcee7640000000000000000,
   0x4fb441a6e2a44e7a937d0d5115848623d1ec4eb4839ba1770300000000000000,
   0x3fe33edfbacd075589cb510ded7e210b86be84caa9f7f8fd0000000000000000,
   0x1f944cd83662e9a8867bf2bd78a0f31265b587ed210375b00300000000000000,
   0x795c5e56676af818fed19661a8e618c1a106723c74a355360100000000000000,
   0x5b71d7bb37be14cd36e71af068fb94945021139928d9d9000000000000000000,
   0x95b68e4b9557f4f77f20b9550920f0abaefc57c132df2ec10000000000000000,
   0xecd4a6a56c1c7f5ce447da8f6ddec7850f23d5b8a5b5e7770100000000000000,
   0x26ea07bf983a02f3d2b4e576b860d16a2e9d0df5796e26600300000000000000,
   0x19731159c07717122febe0f95c7dc6da79ccefcb71e304540200000000000000,
   0x06e1f33eb6a2ad7a39015f0523dbe83aa1d7406eb32e7ed40100000000000000,
   0x015a2ff777ae1c2f96073a84cde2f6f7761506c9bcd383100100000000000000,
   0xb6bb0fd36cfa83866dbfa8de2a0111938898bf78439248180400000000000000,
   0xfd60bef8b97f05855a10796f02a8cac75a0d8937443b15b80100000000000000,
   0xc6a10b7a45e21ebc9cd82ff7537a1f892103fa0e8edc4f220000000000000000,
   0xbd5ef99443993e0566d26bf96ff5ddee92252ad0274e79790200000000000000,
   0xdf9ca10b7c9bf3d64a10a7f8acdc044090d7cca4f0b86af00300000000000000,
   0xd8789b570a05608779e89ad8137ef0bffc0ddbe87df438160100000000000000,
   0x793048655a4adaef0387991bb6e3f45f5d15bed2981e68170400000000000000,
   0xb1f474c27d9e318c264219a83729a82b7143b9a520b0366e0300000000000000,
   0x8eb010cc952198721c18bf333e81664cfe2c929e0b57dc790200000000000000,
   0xad993867a1c6b237f784192917af53867b8de339f57bc9820200000000000000,
   0x581c5763ed486c19bd867dff450b8cc270d98b8177c005440100000000000000,
   0xf4f00995f249a5ea77036e40296b42a0d1e97057b90d708b0000000000000000,
   0x627331e44e2df01e9db05f2b9c89031d388e439836f0a9090100000000000000,
   0xbf931cd5550117139c63077b1b6dfad5289ee8a728a8a62d0400000000000000,
   0x77f0dc07a07c7a404391d59b960ad8111ac0d2f43177cfc70000000000000000,
   0x9b120c4facba57c5185daf2a0c298ae2b695f11672f1fcb00200000000000000,
   0x99a19a3cd8e2b03298af12c1180433330e949f0e8afdc4360300000000000000,
   0x7c67e874857d9bea3263e73431f39ce780b7cfb247c537bc0300000000000000,
   0x05fd647e29ba655859c88ecaf81976e0bf4edc7679e45a7f0300000000000000,
   0x40a51749a1b642f0d29180e89fa9bbfca5f30e3855c0c8990100000000000000,
   0x6d7220b3740ada8af441e124d2758baf8fa567b83171cf7a0000000000000000,
   0x6381305e886d1d9382f3dab8b4fe291c60d620f4438ce70f0100000000000000,
   0xe4fcdca71baf950d7392a3ae96e3cf5980055ac6c5c00d2f0100000000000000,
   0xd8031069d549dc7743de3629febac58a85b04bda0fa068580300000000000000,
   0x9a3a6781867cf72a9ae8303c87ea5142c8de0b81246631ca0000000000000000,
   0xa94639da03ca310637c090b2ef86a199751ebbfead01b4230400000000000000,
   0xa7c90a0da66cade38f5e088f69d09795d8c8a92d63fe4d3e0100000000000000,
   0xd0f5a25f030147eb667c7a38468089e45612e8fabfda67570200000000000000,
   0x0084c6c5d0c97d871ce84a446c861d0618afd48cc27873e50200000000000000,
   0xfa6c9e58b983e6017a0dcb9a6d90ed06ccb941fe2121a9cd0300000000000000,
   0x5058eabbd8068eda9d3916cbec04d0712f1b866deff1fb2d0400000000000000,
   0xca0712fe7848a9d266ed0168e4d1e469f37f60125ca699730000000000000000,
   0xc0df26dad9914c19aefe0786256698890bc55415cbaf01000100000000000000,
   0xb025b83064f9caf6ed9b32e9d73e40737d00d51fa6345d840200000000000000,
   0x6a22f7d2e943a5bb292e76bde1502b61d3b4e267d41f97060200000000000000,
   0x1a0a2df12523f78e094844d75980e7e63fce4aefd32d47180300000000000000,
   0xb24636bc38a913e7d5666af83bae3e5a4e6a52407c9a1fe30300000000000000,
   0xcc7d2fffa86e7ad91bfba49f0ba57c775c6e7275340875e20200000000000000,
   0x65b1c9ee22a69a5a58bf936914b571b7fdda915a96b460840000000000000000,
   0x5319a0628b66dcde0f9a4e882dcfd0ca21a9d110199e55970100000000000000,
   0x684bc86d167ced3d5934dbbbad5c6dd08066a2666eb8f06f0200000000000000,
   0x9b213c9460c29bd976773c0253b8f073289215df5aa024290200000000000000,
   0x30557cd77d1f672b996a26de56a27fc801bf94db020ead450300000000000000,
   0xe2944d3ed61a74f559dcff2a9df585b41653dc2fefeb6e2f0200000000000000,
   0xeabd39e967078cd5127a0088d899f79677f9e9580d46f0f10100000000000000,
   0x1578ae23cf2cbcdf2ea929cee6ff65f624927a6a24866d7d0100000000000000,
   0xdd56c1930cc89c9f560a91d91a806e6ef7be16b2ca50de6c0300000000000000,
   0x0ba4b77fe870a1aaa568d2aba082f9986a906a51ba5be8390200000000000000,
   0x16db996cdc1188b7a2852ead5713a7ff08d09a56fcf0dc550400000000000000,
   0x17c0ef61f2bb21f902f0f3d9292a159f585b5587193667f50000000000000000,
   0xef531f68d9c9a526f0bc27506820aeb5dcff00909007bc4e0300000000000000,
   0x3aba7fa2ea3e85ba6eababc911e7740450a438a59a51f43c0100000000000000,
   0x0d4c8193b28723ec5b077c9cec0b52eda24af04afe13a12d0400000000000000,
   0xf7965d9671a3ac9529b543da48b55477c47d037db6236d9a0400000000000000,
   0x64587a0f0b8e4f1d8f683dbc8660dab0de37770d0ef5f0be0100000000000000,
   0x478edc6f9f98e3349b04e5963c3547e4a697c616501e9f900000000000000000]

/-- The headers have those hashes. -/
noncomputable def hashOk (Xs : List Nat) : List Nat → Bool :=
  @List.rec Nat (fun _ => List Nat → Bool) (fun _ => true)
    (fun X _ ih Hs => @List.rec Nat (fun _ => Bool) false (fun H Hs _ => fhash X fun h => Nat.beq h H && ih Hs) Hs) Xs

theorem hashOk_cons (X : Nat) (Xs : List Nat) (H : Nat) (Hs : List Nat) :
    hashOk (X :: Xs) (H :: Hs) = fhash X fun h => Nat.beq h H && hashOk Xs Hs := rfl

/-- `good`, given the hashes. -/
noncomputable def goodWith (prev w : Nat) (seen : List Nat) : List Nat → List Nat → Bool
  | [], _ => true
  | _ :: _, [] => false
  | X :: Xs, h :: hs =>
    Nat.beq (Nat.mod (Nat.shiftRight X 96) 115792089237316195423570985008687907853269984665640564039457584007913129639936) prev &&
      (Nat.ble (Nat.mod (Nat.shiftRight X 32) 18446744073709551616) 9223372036854775807 &&
      match powToTarget (Nat.mod (Nat.shiftRight X 1600) 4294967296) with
      | none => false
      | some t => seen.all (fun x => !Nat.beq x h) &&
          force (Nat.add w (Nat.mod (Nat.div 115792089237316195423570985008687907853269984665640564039457584007913129639936 (Nat.succ (leNat t.reverse))) 115792089237316195423570985008687907853269984665640564039457584007913129639936)) fun w' =>
            Nat.ble w' 115792089237316195423570985008687907853269984665640564039457584007913129639935 && goodWith h w' (h :: seen) Xs hs)

theorem hashOk_take : ∀ (n : Nat) (Xs Hs : List Nat), hashOk (Xs.take n) (Hs.take n) = true → hashOk (Xs.drop n) (Hs.drop n) = true → hashOk Xs Hs = true
  | 0, _, _, _, h => h
  | _ + 1, [], _, _, _ => rfl
  | _ + 1, _ :: _, [], h, _ => nomatch h
  | n + 1, X :: Xs, H :: Hs, h, h' => by
    rw [List.take_succ_cons, List.take_succ_cons, hashOk_cons, fhash_eq, Bool.and_eq_true] at h
    rw [hashOk_cons, fhash_eq, Bool.and_eq_true]
    exact ⟨h.1, hashOk_take n Xs Hs h.2 h'⟩

theorem entries_hashes (al : Bool × Bool) : ∀ (Xs Hs : List Nat) (w h : Nat), hashOk Xs Hs = true → Xs.length = Hs.length →
    (entries al w h Xs).map (fun e => leNat e.hash) = Hs
  | [], [], _, _, _, _ => rfl
  | [], _ :: _, _, _, _, hl => by cases hl
  | _ :: _, [], _, _, h, _ => nomatch h
  | X :: Xs, H :: Hs, w, h, hh, hl => by
    rw [hashOk_cons, fhash_eq, Bool.and_eq_true] at hh
    rw [entries, List.map_cons, entries_hashes al Xs Hs _ _ hh.2 (Nat.succ.inj hl), hashed_hdrOf, Nat.eq_of_beq_eq_true hh.1]

theorem good_of : ∀ (Xs Hs : List Nat) (prev w : Nat) (seen : List Nat), hashOk Xs Hs = true → goodWith prev w seen Xs Hs = true → good prev w seen Xs = true
  | [], _, _, _, _, _, _ => rfl
  | _ :: _, [], _, _, _, h, _ => nomatch h
  | X :: Xs, H :: Hs, prev, w, seen, h, g => by
    rw [hashOk_cons, fhash_eq, Bool.and_eq_true] at h
    rw [goodWith, Bool.and_eq_true, Bool.and_eq_true] at g
    rw [good_cons, Bool.and_eq_true, Bool.and_eq_true]
    refine ⟨g.1, g.2.1, ?_⟩
    have g := g.2.2
    cases ht : powToTarget (Nat.mod (Nat.shiftRight X 1600) 4294967296) with
    | none => rw [ht] at g; cases g
    | some t =>
      rw [ht] at g
      dsimp only at g ⊢
      rw [fhash_eq, Nat.eq_of_beq_eq_true h.1]
      rw [force_eq, Bool.and_eq_true, Bool.and_eq_true] at g
      rw [force_eq, Bool.and_eq_true, Bool.and_eq_true]
      exact ⟨g.1, g.2.1, good_of Xs Hs _ _ _ h.2 g.2.2⟩

set_option maxRecDepth 1000000 in
theorem hash_0 : hashOk ((Network.checkpointHeaders.drop 0).take 30) ((hashes.drop 0).take 30) = true := by decide +kernel

set_option maxRecDepth 1000000 in
theorem hash_30 : hashOk ((Network.checkpointHeaders.drop 30).take 30) ((hashes.drop 30).take 30) = true := by decide +kernel

set_option maxRecDepth 1000000 in
theorem hash_60 : hashOk ((Network.checkpointHeaders.drop 60).take 30) ((hashes.drop 60).take 30) = true := by decide +kernel

set_option maxRecDepth 1000000 in
theorem hash_90 : hashOk ((Network.checkpointHeaders.drop 90).take 30) ((hashes.drop 90).take 30) = true := by decide +kernel

set_option maxRecDepth 1000000 in
theorem hash_120 : hashOk ((Network.checkpointHeaders.drop 120).take 30) ((hashes.drop 120).take 30) = true := by decide +kernel

set_option maxRecDepth 1000000 in
theorem goodWith_all : goodWith (leNat below) workBelow apart Network.checkpointHeaders hashes = true := by decide +kernel

theorem headers_length : Network.checkpointHeaders.length = 150 := by decide +kernel

theorem hashes_length : hashes.length = 150 := by decide +kernel

set_option maxRecDepth 1000000 in
theorem evil_fhash : (fhash evil fun h => Nat.beq h (leNat evilHash)) = true := by decide +kernel

theorem leNat_inj {a b : Bytes} (hl : a.length = b.length) (h : leNat a = leNat b) : a = b := by
  rw [← leBytes_leNat a, ← leBytes_leNat b, hl, h]

theorem evil_hash (al : Bool × Bool) : hashed al (hdrOf evil) = evilHash := by
  have := evil_fhash
  rw [fhash_eq] at this
  refine leNat_inj ((cache_ok al al _).2.trans (by decide)) ?_
  rw [hashed_hdrOf]
  exact Nat.eq_of_beq_eq_true this

theorem hashOk_all : hashOk Network.checkpointHeaders hashes = true := by
  have e (n : Nat) (l : List Nat) : (l.drop n).drop 30 = l.drop (n + 30) := by rw [List.drop_drop]
  refine hashOk_take 30 _ _ (hash_0) ?_
  refine hashOk_take 30 _ _ (hash_30) ?_
  rw [e, e]
  refine hashOk_take 30 _ _ (hash_60) ?_
  rw [e, e]
  refine hashOk_take 30 _ _ (hash_90) ?_
  rw [e, e]
  refine hashOk_take 30 _ _ (hash_120) ?_
  rw [e, e, show Network.checkpointHeaders.drop (90 + 30 + 30) = [] from List.drop_eq_nil_of_le (by rw [headers_length])]
  rfl

theorem good_all : good (leNat below) workBelow apart Network.checkpointHeaders = true :=
  good_of _ _ _ _ _ hashOk_all goodWith_all

end Verif.Checkpoint
