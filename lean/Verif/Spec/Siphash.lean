import Verif.Base
/-
SipHash-2-4 as Aumasson and Bernstein define it ("SipHash: a fast short-input PRF", 2012), over words of 64 bits. The names
of the errors.
-/
namespace Verif.Spec.Siphash

abbrev Word := BitVec 64

/-- Words from bytes, the lowest byte first. -/
def word (b : Bytes) : Word := BitVec.ofNat 64 (leNat b)

/-- SipRound: a sum, a rotation and an exclusive or, four times; two words are also rotated by half. -/
def round (s : Word × Word × Word × Word) : Word × Word × Word × Word :=
  match s with
  | (a, b, c, d) =>
    let a₁ := a + b
    let c₁ := c + d
    let b₁ := b.rotateLeft 13 ^^^ a₁
    let d₁ := d.rotateLeft 16 ^^^ c₁
    let a₂ := a₁.rotateLeft 32
    let c₂ := c₁ + b₁
    let a₃ := a₂ + d₁
    let b₂ := b₁.rotateLeft 17 ^^^ c₂
    let d₂ := d₁.rotateLeft 21 ^^^ a₃
    (a₃, b₂, c₂.rotateLeft 32, d₂)

/-- The message is filled up with zeros, and a last byte that is its length modulo 256, to whole words. -/
def padded (m : Bytes) : Bytes := m ++ List.replicate (7 - m.length % 8) 0 ++ [UInt8.ofNat m.length]

/-- The words of the message. -/
def words (m : Bytes) : List Word := (List.range (m.length / 8 + 1)).map fun i => word (((padded m).drop (8 * i)).take 8)

/-- Compression: the word enters before and after two rounds. -/
def compress (s : Word × Word × Word × Word) (m : Word) : Word × Word × Word × Word :=
  match round (round (s.1, s.2.1, s.2.2.1, s.2.2.2 ^^^ m)) with
  | (a, b, c, d) => (a ^^^ m, b, c, d)

/-- The state from a key of 128 bits ("somepseudorandomlygeneratedbytes"). -/
def initial (k₀ k₁ : Word) : Word × Word × Word × Word :=
  (k₀ ^^^ 0x736f6d6570736575, k₁ ^^^ 0x646f72616e646f6d, k₀ ^^^ 0x6c7967656e657261, k₁ ^^^ 0x7465646279746573)

/-- Finalization: four rounds and the exclusive or of the words. -/
def final (s : Word × Word × Word × Word) : Word :=
  match round (round (round (round (s.1, s.2.1, s.2.2.1 ^^^ 0xff, s.2.2.2)))) with
  | (a, b, c, d) => a ^^^ b ^^^ c ^^^ d

/-- SipHash-2-4 of words, after a state. -/
def hashWords (s : Word × Word × Word × Word) (l : List Word) : Word := final (l.foldl compress s)

/-- SipHash-2-4 of a message under a key of 16 bytes. -/
def sip (key m : Bytes) : Word := hashWords (initial (word (key.take 8)) (word ((key.drop 8).take 8))) (words m)

/-- The variant for keys of 256 bits: the state is the key. -/
def keyState (key : Bytes) : Word × Word × Word × Word :=
  (word (key.take 8), word ((key.drop 8).take 8), word ((key.drop 16).take 8), word ((key.drop 24).take 8))

/-- The errors by their constants in error.h, without the prefix HSK_. -/
def names : List String :=
  ["SUCCESS", "ENOMEM", "ETIMEOUT", "EFAILURE", "EBADARGS", "EENCODING", "EHASHMISMATCH", "ESAMEKEY", "ESAMEPATH", "ENEGDEPTH",
   "EPATHMISMATCH", "ETOODEEP", "EUNKNOWNERROR", "EMALFORMEDNODE", "EINVALIDNODE", "EEARLYEND", "ENORESULT", "EUNEXPECTEDNODE",
   "ERECORDMISMATCH", "ENEGTARGET", "EHIGHHASH", "ETIMETOONEW", "EDUPLICATE", "EDUPLICATEORPHAN", "ETIMETOOOLD", "EBADDIFFBITS",
   "EORPHAN", "EACTONE", "EACTTWO", "EACTTHREE", "EBADSIZE", "EBADTAG"]

end Verif.Spec.Siphash
