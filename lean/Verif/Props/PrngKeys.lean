import Verif.Props.Prng
/-!
# C128: keys that are generated one after the other
-/
set_option linter.unusedSimpArgs false

namespace FcRetrieval.Prng

variable {D : Type} {H : Bytes → Bytes} {F : Inner D}

/-- `n` private keys generated one after the other. -/
def keys (H : Bytes → Bytes) (F : Inner D) : Nat → Gen D → List (Option Bytes)
  | 0, _ => []
  | n + 1, g => (generateKey H F g).1 :: keys H F n (generateKey H F g).2

/-- What becomes of forty bytes: a key of 32 bytes, the number reduced to `1 .. order - 1`. -/
def KeyOf (r : Bytes) (k : Option Bytes) : Prop := ∃ b, k = some b ∧ b.length = 32 ∧ bytesNum b = bytesNum r % (curveOrder - 1) + 1

attribute [local irreducible] curveOrder natBytes in
theorem padKey_scalar (r : Bytes) : KeyOf r (padKey (natBytes (scalar r))) := by
  obtain ⟨-, -, h3⟩ := scalar_bounds r
  refine ⟨_, if_pos h3, ?_, ?_⟩
  · simp only [List.length_append, List.length_replicate]
    omega
  · rw [bytesNum_append, bytesNum_zeros, bytesNum_natBytes]
    simp [scalar]

theorem keys_of : ∀ (n : Nat) (g : Gen D) (i : Nat) (r : Bytes), (handedOut H F (List.replicate n (.read 40)) g)[i]? = some r →
    ∃ k, (keys H F n g)[i]? = some k ∧ KeyOf r k := by
  intro n
  induction n with
  | zero => intro g i r h; simp [handedOut] at h
  | succ n ih =>
    intro g i r h
    rw [List.replicate_succ, handedOut] at h
    cases i with
    | zero =>
      simp only [List.getElem?_cons_zero, Option.some.injEq] at h
      subst h
      exact ⟨_, rfl, padKey_scalar _⟩
    | succ i =>
      rw [List.getElem?_cons_succ] at h
      exact ih _ i r h

theorem handedOut_lengths (hH : Digest H) : ∀ (n : Nat) (g : Gen D), g.state.length = 32 →
    (handedOut H F (List.replicate n (.read 40)) g).length = n ∧ ∀ r ∈ handedOut H F (List.replicate n (.read 40)) g, r.length = 40 := by
  intro n
  induction n with
  | zero => intro g _; simp [handedOut]
  | succ n ih =>
    intro g hg
    have hl := (C129_fills (F := F) hH g hg (List.replicate 40 0) (List.replicate 40 0) rfl).1
    have hs : (readBytes H F (List.replicate 40 0) g).2.state.length = 32 := by
      rw [readBytes_eq hH _ g hg]
      have h2 : ((List.replicate 40 (0 : UInt8)).length + 31) / 32 = 2 := by simp
      rw [h2]
      exact hH _
    obtain ⟨h1, h2⟩ := ih _ hs
    rw [List.replicate_succ, handedOut]
    refine ⟨by rw [List.length_cons, h1], ?_⟩
    intro r hr
    rcases List.mem_cons.1 hr with rfl | hr
    · rw [hl, List.length_replicate]
    · exact h2 r hr

/-- **C128**, keys: the private keys that a process generates one after the other are made of forty bytes each, and no two of these are the same: else there is
a collision of the digest.  (Two keys made of different bytes are the same only if the numbers agree modulo the order of the curve minus one.) -/
theorem C128_keys_partial (hH : Digest H) (d : D) (now : Int) (hnow : 0 ≤ now) (rnd : Bytes) (hrnd : rnd.length = 32) (n : Nat) :
    ∃ reads : List Bytes, reads.length = n ∧ (∀ r ∈ reads, r.length = 40) ∧
      (∀ (i : Nat) (r : Bytes), reads[i]? = some r → ∃ k, (keys H F n (newPRNG d now rnd))[i]? = some k ∧ KeyOf r k) ∧ (reads.Nodup ∨ Collision H) := by
  obtain ⟨h1, h2⟩ := handedOut_lengths (F := F) hH n (newPRNG d now rnd) hrnd
  refine ⟨_, h1, h2, fun i r h => keys_of n _ i r h, ?_⟩
  rcases C127_partial (F := F) hH d now hnow rnd hrnd (List.replicate n (.read 40)) with h | h
  · left
    have e : ∀ l : List Bytes, (∀ r ∈ l, r.length = 40) → l.flatMap pieces = l.map (·.take 32) := by
      intro l
      induction l with
      | nil => intro _; rfl
      | cons r l ih =>
        intro hl
        rw [List.flatMap_cons, ih (fun r hr => hl r (by simp [hr]))]
        simp [pieces, hl r (by simp), List.range_succ]
    rw [e _ h2] at h
    exact List.Pairwise.of_map _ (fun a b hab hc => hab (by rw [hc])) h
  · exact .inr h

/-- Non-vacuity: two keys, made of different bytes. -/
example : (keys exH exF 2 exG).length = 2 ∧ (handedOut exH exF (List.replicate 2 (.read 40)) exG).Nodup := by decide +kernel

end FcRetrieval.Prng
