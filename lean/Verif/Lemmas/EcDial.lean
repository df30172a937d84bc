import Verif.Lemmas.BrontideSession
/-
A connection that is opened waits for the second act, if the first could be sent.
-/
namespace Verif.Brontide
open Verif.Spec.Brontide
variable {σ : Type}

theorem dial_ok {P : Prim} {E : Env σ} (hl : KeepsLength P) (h : σ) {s e : KeyPair} {rs es : Bytes}
    (he : Draws P E.rand e) (hes : P.ecdh rs e.priv = some es) (hw : ∀ x y, (E.writeCb x y).2 = 0) :
    ∃ m, dial P E h s.priv rs = .ok m ∧ m.b.state ≠ .none := by
  obtain ⟨b1, hb1, sy1, cs1, ck1, tp1, dg1, eb1⟩ := initState_spec (P := P) (b := bInit) (k := s.priv) (rs := rs) csInit_iv
  unfold dial
  rw [hb1]
  simp only [Out.bind]
  obtain ⟨hp1, hp2, ent, hp3, hp4⟩ := he
  have sy2 : Sym ({ b1 with state := .two } : B) (start P rs) 0 := sym_edit sy1 rfl rfl rfl
  obtain ⟨b2, hb2, sy3, cs3, ck3, tp3, dg3, eb3⟩ := genEph_spec hl (remote := b1.remoteStatic) sy2 hp1 hp2 hp3 hp4 (by rw [eb1]; exact hes)
  have hin : b1.initiator = true := by rw [eb1]
  have hst : b2.state ≠ .none := by rw [eb3]; simp
  unfold onConnect
  dsimp only
  rw [if_pos hin]
  unfold genActOne
  dsimp only
  rw [hb2]
  simp only [Out.bind_ok, emit, hw]
  exact ⟨_, rfl, hst⟩

end Verif.Brontide
