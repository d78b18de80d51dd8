import Verif.Model.Prng
/-!
# Specification vocabulary for the random number generators
-/

namespace FcRetrieval.Prng

/-- Two different inputs with the same digest. -/
def Collision (H : Bytes → Bytes) : Prop := ∃ x y, x ≠ y ∧ H x = H y

/-- The digest has 32 bytes. -/
def Digest (H : Bytes → Bytes) : Prop := ∀ x, (H x).length = 32

/-- What one does with a generator: read some bytes, or add seed material. -/
inductive Op where
  | read (n : Nat)
  | reseed (seed : Bytes)

/-- What the reads of a history hand out, one buffer for each. -/
def handedOut {D : Type} (H : Bytes → Bytes) (F : Inner D) : List Op → Gen D → List Bytes
  | [], _ => []
  | .read n :: ops, g => (readBytes H F (List.replicate n 0) g).1 :: handedOut H F ops (readBytes H F (List.replicate n 0) g).2
  | .reseed s :: ops, g => handedOut H F ops (reseed H F s g)

/-- The whole pieces of 32 bytes of a buffer. -/
def pieces (b : Bytes) : List Bytes := (List.range (b.length / 32)).map fun i => (b.drop (32 * i)).take 32

/-- What concurrent calls have returned so far. -/
def results {D : Type} (s : Threads D) : List (Option Bytes) := s.threads.map fun t => if t.pc = .done then some t.buf else none

/-- The generator a call gives its caller; `true` if it is one of those that are meant to be kicked. -/
def given {D : Type} (w : World D) : Call → Option (Nat × Bool)
  | .getPrivate _ _ => some (w.priv.getD w.gens.length, true)
  | .getPublic _ _ => some (w.pub.getD w.gens.length, true)
  | .newPrivate _ _ _ => some (w.gens.length, true)
  | .newOther _ _ _ => some (w.gens.length, false)
  | .read _ _ | .kick _ => none

/-- `n` random identifiers made one after the other. -/
def ids {D : Type} (H : Bytes → Bytes) (F : Inner D) : Nat → Gen D → List Bytes
  | 0, _ => []
  | n + 1, g => (newRandomID H F g).1 :: ids H F n (newRandomID H F g).2

end FcRetrieval.Prng
