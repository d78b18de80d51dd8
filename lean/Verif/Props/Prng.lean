import Verif.Lemmas.Prng
import Verif.Model.Crypto
import Verif.Props.Offer
/-!
# Random bytes, identifiers and keys
-/
set_option linter.unusedSimpArgs false
namespace FcRetrieval.Prng
variable {D : Type} {H : Bytes → Bytes} {F : Inner D}

/-! Examples: a digest that keeps the first 32 bytes, and an inner generator that always gives sevens. -/

def exH (x : Bytes) : Bytes := (x ++ List.replicate 32 0).take 32
def exF : Inner Unit := { read := fun _ n => (List.replicate n 7, ()), reseed := fun _ _ => (), fills := by simp }
def exG : Gen Unit := newPRNG () 5 (List.replicate 32 9)

theorem exH_digest : Digest exH := fun x => by simp only [exH, List.length_take, List.length_append, List.length_replicate]; omega

/-! ## C127 -/

/-- No piece of 32 bytes is ever handed out twice by one generator, whatever the inner generator gives and whatever seeds are
added in between: else there is a collision of the digest.  For calls one after the other. -/
theorem C127_partial (hH : Digest H) (d : D) (now : Int) (hnow : 0 ≤ now) (rnd : Bytes) (hrnd : rnd.length = 32) (ops : List Op) :
    ((handedOut H F ops (newPRNG d now rnd)).flatMap pieces).Nodup ∨ Collision H := by
  by_cases hc : Collision H
  · exact .inr hc
  left
  obtain ⟨cs, h1, h2, h3, h4⟩ := handedOut_made (F := F) hH ops (newPRNG d now rnd) hrnd
  refine List.pairwise_iff_getElem.2 ?_
  intro i j hi hj hij heq
  have hi' : i < cs.length := by omega
  have hj' : j < cs.length := by omega
  obtain ⟨x, s, hx, hs, e1⟩ := h4 i _ cs[i] (List.getElem?_eq_getElem hi) (List.getElem?_eq_getElem hi')
  obtain ⟨y, t, hy, ht, e2⟩ := h4 j _ cs[j] (List.getElem?_eq_getElem hj) (List.getElem?_eq_getElem hj')
  rw [e1, e2] at heq
  have hlt : cs[i] < cs[j] := List.pairwise_iff_getElem.1 h2 i j hi' hj' hij
  have hci : now < cs[i] := h3 _ (List.getElem_mem _)
  exact hc ⟨_, _, preimage_ne (by omega) (by omega) (by omega) hx hs hy ht, heq⟩

example : ((handedOut exH exF [.read 70, .reseed [1], .read 32] exG).flatMap pieces).length = 3
    ∧ ((handedOut exH exF [.read 70, .reseed [1], .read 32] exG).flatMap pieces).Nodup := by decide +kernel

/-- A call that runs alone gives its caller what `C127_partial` speaks about. -/
theorem C127_alone (g : Gen D) (hg : g.state ≠ []) (lens : List Nat) (i n : Nat) (hi : lens[i]? = some n) :
    ∃ k, (results (run H F (start g lens) (List.replicate k i)))[i]? = some (some (readBytes H F (List.replicate n 0) g).1)
      ∧ (run H F (start g lens) (List.replicate k i)).gen = (readBytes H F (List.replicate n 0) g).2 := by
  have hz : 0 < g.state.length := List.length_pos_iff.2 hg
  have ht : (start g lens).threads[i]? = some { buf := List.replicate n 0 } := by simp [start, hi]
  obtain ⟨k, h, ofs, e⟩ := solo (H := H) (F := F) n (start g lens) i _ (by simp) ht rfl hz
  have hil : i < (start g lens).threads.length := by
    rcases Nat.lt_or_ge i (start g lens).threads.length with h | h
    · exact h
    · rw [List.getElem?_eq_none h] at ht; cases ht
  refine ⟨k, ?_, ?_⟩
  · rw [e]
    simp only [results, List.getElem?_map, List.getElem?_set_self hil, Option.map_some, if_true]
    simp [readBytes, start]
  · rw [e]
    simp [readBytes, start]

example : results (run exH exF (start exG [32, 40]) (List.replicate 14 1))
    = [none, some ((readBytes exH exF (List.replicate 40 0) exG).1)] := by decide +kernel

/-- Two calls at the same time can get the same bytes: for every digest, every inner generator, every state of the generator and
every length. -/
theorem C127_refuted (H : Bytes → Bytes) (F : Inner D) (g : Gen D) (hg : g.state ≠ []) (n : Nat) :
    ∃ sched b, results (run H F (start g [n, n]) sched) = [some b, some b] ∧ b.length = n := by
  obtain ⟨sched, t, h1, h2, h3, _⟩ := lockstep_all (H := H) (F := F) n (start g [n, n]) { buf := List.replicate n 0 } (by simp) rfl rfl
    (List.length_pos_iff.2 hg)
  exact ⟨sched, t.buf, by simp [results, h1, h2], by simpa using h3⟩

/-- Not for want of random bytes: the same calls one after the other get different ones. -/
example : results (run exH exF (start exG [32, 32]) (List.replicate 7 0 ++ List.replicate 7 1))
    = [some (exH ([6] ++ List.replicate 32 7)), some (exH ([7] ++ List.replicate 32 7))]
    ∧ results (run exH exF (start exG [32, 32]) [0, 0, 0, 0, 1, 1, 1, 1, 0, 1, 0, 1, 0, 1])
    = [some (exH ([7] ++ List.replicate 32 7)), some (exH ([7] ++ List.replicate 32 7))] := by decide +kernel

/-! ## C128 -/

theorem newRandomID_eq (hH : Digest H) (g : Gen D) (hg : g.state.length = 32) :
    newRandomID H F g = ((round H F 32 g).state, round H F 32 g) := by
  unfold newRandomID
  rw [readBytes_eq hH _ g hg]
  have hl : (round H F 32 g).state.length = 32 := hH _
  have h1 : ((List.replicate 32 (0 : UInt8)).length + 31) / 32 = 1 := by simp
  rw [h1]
  simp only [outputs, rounds, List.flatten_cons, List.flatten_nil, List.append_nil, List.length_replicate]
  rw [List.take_of_length_le (by omega)]

theorem handedOut_ids (hH : Digest H) : ∀ (n : Nat) (g : Gen D), g.state.length = 32 →
    (handedOut H F (List.replicate n (.read 32)) g).flatMap pieces = ids H F n g
  | 0, _, _ => rfl
  | n + 1, g, hg => by
    have e := newRandomID_eq (F := F) hH g hg
    have hl : (round H F 32 g).state.length = 32 := hH _
    unfold newRandomID at e
    have ih := handedOut_ids hH n (round H F 32 g) hl
    rw [List.replicate_succ]
    simp only [handedOut, ids, List.flatMap_cons]
    unfold newRandomID
    rw [e, ih]
    simp [pieces, hl, List.take_of_length_le (Nat.le_of_eq hl)]

/-- The identifiers a process makes at random, one after the other, are all different and have 32 bytes: else there is a collision
of the digest. -/
theorem C128_partial (hH : Digest H) (d : D) (now : Int) (hnow : 0 ≤ now) (rnd : Bytes) (hrnd : rnd.length = 32) (n : Nat) :
    (∀ b ∈ ids H F n (newPRNG d now rnd), b.length = 32) ∧ ((ids H F n (newPRNG d now rnd)).Nodup ∨ Collision H) := by
  constructor
  · have : ∀ (n : Nat) (g : Gen D), g.state.length = 32 → ∀ b ∈ ids H F n g, b.length = 32 := by
      intro n
      induction n with
      | zero => intro g _ b hb; simp [ids] at hb
      | succ n ih =>
        intro g hg b hb
        simp only [ids, newRandomID_eq hH g hg, List.mem_cons] at hb
        rcases hb with rfl | hb
        · exact hH _
        · exact ih _ (hH _) b hb
    exact this n _ hrnd
  · rw [← handedOut_ids hH n _ hrnd]
    exact C127_partial hH d now hnow rnd hrnd _

example : (ids exH exF 3 exG).length = 3 ∧ (ids exH exF 3 exG).Nodup := by decide +kernel

/-- Two threads that make an identifier at the same time can make the same one, and two that generate a key pair the same key. -/
theorem C128_refuted (H : Bytes → Bytes) (F : Inner D) (g : Gen D) (hg : g.state ≠ []) :
    (∃ sched id, results (run H F (start g [32, 32]) sched) = [some id, some id] ∧ id.length = 32) ∧
    (∃ sched b, results (run H F (start g [40, 40]) sched) = [some b, some b] ∧ b.length = 40) :=
  ⟨C127_refuted H F g hg 32, C127_refuted H F g hg 40⟩

/-! ## C129 -/

/-- `ReadBytes` overwrites the whole buffer, whatever its length and whatever was in it: the bytes are the digests of
⌈len/32⌉ rounds, one after the other, cut to the length. -/
theorem C129_fills (hH : Digest H) (g : Gen D) (hg : g.state.length = 32) (b c : Bytes) (hbc : b.length = c.length) :
    (readBytes H F b g).1.length = b.length ∧ readBytes H F b g = readBytes H F c g
    ∧ (readBytes H F b g).2.counter = g.counter + ((b.length + 31) / 32 : Nat) := by
  rw [readBytes_eq hH b g hg, readBytes_eq hH c g hg, hbc]
  refine ⟨?_, rfl, rounds_counter _ _ _⟩
  simp only [List.length_take, flatten_length hH]
  omega

example : (readBytes exH exF [1, 2, 3] exG).1 = [6, 7, 7] := by decide +kernel

theorem scalar_bounds (b : Bytes) : 1 ≤ scalar b ∧ scalar b < curveOrder ∧ (natBytes (scalar b)).length ≤ 32 := by
  have h0 : curveOrder < 256 ^ 32 := by decide +kernel
  have h1 : 0 < curveOrder - 1 := by decide +kernel
  have h2 : scalar b < curveOrder := by
    unfold scalar
    generalize curveOrder = c at *
    have : bytesNum b % (c - 1) < c - 1 := Nat.mod_lt _ h1
    omega
  exact ⟨Nat.le_add_left _ _, h2, natBytes_length_le.2 (Nat.lt_trans h2 h0)⟩

attribute [local irreducible] scalar curveOrder natBytes in
/-- Every generated private key has 32 bytes, encodes a number from 1 to the order of the curve minus one, and can be written out
and read again. -/
theorem C129_key (g : Gen D) :
    ∃ k, (generateKey H F g).1 = some k ∧ k.length = 32 ∧ 1 ≤ bytesNum k ∧ bytesNum k < curveOrder
      ∧ Crypto.decodeRawPrivateKey (hexEncode k) = .ok { pKey := some k, pubKey := none, alg := Crypto.sigAlg } := by
  obtain ⟨h1, h2, h3⟩ := scalar_bounds (readBytes H F (List.replicate 40 0) g).1
  unfold generateKey
  simp only
  generalize scalar (readBytes H F (List.replicate 40 0) g).1 = z at *
  have hl : (List.replicate (32 - (natBytes z).length) (0 : UInt8) ++ natBytes z).length = 32 := by
    simp only [List.length_append, List.length_replicate]
    omega
  refine ⟨_, if_pos h3, hl, ?_, ?_, ?_⟩
  · rw [bytesNum_append, bytesNum_zeros, bytesNum_natBytes]
    omega
  · rw [bytesNum_append, bytesNum_zeros, bytesNum_natBytes]
    simpa using h2
  · unfold Crypto.decodeRawPrivateKey
    rw [hexDecode_encode]
    simp only [Crypto.decodeSecPrivate, hl]
    rfl

/-! ## C130 -/

/-- The digest does not protect against an inner generator that is known: what was handed out is the state, so two generators that
agree on the counter and on the inner generator, and that handed out the same 32 bytes, hand out the same bytes for ever after.
Whoever has seen those bytes can compute the rest. -/
theorem C130_refuted (hH : Digest H) (g g' : Gen D) (hg : g.state.length = 32) (hg' : g'.state.length = 32)
    (hd : g.drbg = g'.drbg) (hc : g.counter = g'.counter)
    (hout : (readBytes H F (List.replicate 32 0) g).1 = (readBytes H F (List.replicate 32 0) g').1) (ops : List Op) :
    handedOut H F (.read 32 :: ops) g = handedOut H F (.read 32 :: ops) g' := by
  have e := newRandomID_eq (F := F) hH g hg
  have e' := newRandomID_eq (F := F) hH g' hg'
  unfold newRandomID at e e'
  rw [e, e'] at hout
  simp only [handedOut, e, e']
  have : round H F 32 g = round H F 32 g' := by
    simp only [round, hd, hc] at hout ⊢
    rw [hout]
  rw [this]

/-- Explicitly: after 32 bytes `b` were handed out the next 32 are the digest of the next counter, of what the inner generator gives
and of `b`. -/
theorem C130_next_refuted (hH : Digest H) (g : Gen D) (hg : g.state.length = 32) :
    let r := readBytes H F (List.replicate 32 0) g
    (readBytes H F (List.replicate 32 0) r.2).1 = H (counterBytes (g.counter + 2) ++ (F.read (F.read g.drbg 32).2 32).1 ++ r.1) := by
  intro r
  have e : r = _ := newRandomID_eq (F := F) hH g hg
  rw [e]
  have e' := newRandomID_eq (F := F) hH (round H F 32 g) (hH _)
  unfold newRandomID at e'
  rw [e']
  show H (counterBytes (g.counter + 1 + 1) ++ _ ++ _) = _
  rw [Int.add_assoc]
  rfl

example : (readBytes exH exF (List.replicate 32 0) (readBytes exH exF (List.replicate 32 0) exG).2).1
    = exH ([7] ++ List.replicate 32 7 ++ (readBytes exH exF (List.replicate 32 0) exG).1) := by decide +kernel

/-- What does hold: as long as nothing was handed out, different states give different bytes although the inner generator is known,
and so do different seeds: else there is a collision of the digest. -/
theorem C130_partial (hH : Digest H) (g : Gen D) (s : Bytes) (hg : g.state.length = 32) (hs : s.length = 32) (hne : g.state ≠ s) :
    (readBytes H F (List.replicate 32 0) g).1 ≠ (readBytes H F (List.replicate 32 0) { g with state := s }).1 ∨ Collision H := by
  have e := newRandomID_eq (F := F) hH g hg
  have e' := newRandomID_eq (F := F) hH { g with state := s } hs
  unfold newRandomID at e e'
  rw [e, e']
  by_cases h : (round H F 32 g).state = (round H F 32 { g with state := s }).state
  · refine .inr ⟨_, _, ?_, h⟩
    intro h'
    exact hne (List.append_cancel_left h')
  · exact .inl h

/-! ## C131 -/

theorem kick_fold (now : Nat → Nat) : ∀ (pool : List Nat) (gs : List (Gen D)), pool.Nodup →
    ∀ ix, (pool.foldl (kickOne H F now) gs)[ix]? = gs[ix]?.map (fun g => if ix ∈ pool then quickReseedKick H F (now ix) g else g)
  | [], gs, _, ix => by simp
  | p :: pool, gs, hn, ix => by
    simp only [List.nodup_cons] at hn
    rw [List.foldl_cons, kick_fold now pool _ hn.2 ix]
    unfold kickOne
    cases hp : gs[p]? with
    | none =>
      simp only
      by_cases hx : ix = p
      · subst hx; simp [hp]
      · simp [hx]
    | some g =>
      simp only
      by_cases hx : ix = p
      · subst hx
        have hi : ix < gs.length := by
          rcases Nat.lt_or_ge ix gs.length with h | h
          · exact h
          · rw [List.getElem?_eq_none h] at hp; cases hp
        simp [List.getElem?_set_self hi, hp, hn.1]
      · rw [List.getElem?_set_ne (Ne.symm hx)]
        simp [hx]

/-- The state of the package variables between calls. -/
structure Kept (w : World D) : Prop where
  nodup : w.pool.Nodup
  bound : ∀ i ∈ w.pool, i < w.gens.length
  priv : ∀ i, w.priv = some i → i ∈ w.pool
  pub : ∀ i, w.pub = some i → i ∈ w.pool

theorem foldl_length (now : Nat → Nat) : ∀ (pool : List Nat) (gs : List (Gen D)), (pool.foldl (kickOne H F now) gs).length = gs.length
  | [], gs => rfl
  | p :: pool, gs => by
    rw [List.foldl_cons, foldl_length now pool]
    unfold kickOne
    split <;> simp

theorem call_kept (instant : Bytes → D) (w : World D) (c : Call) (h : Kept w) :
    Kept (call H F instant w c) ∧ (∀ i ∈ w.pool, i ∈ (call H F instant w c).pool)
    ∧ (∀ i ∈ (call H F instant w c).pool, i ∈ w.pool ∨ i = w.gens.length)
    ∧ w.gens.length ≤ (call H F instant w c).gens.length
    ∧ (∀ i, given w c = some (i, true) → i ∈ (call H F instant w c).pool)
    ∧ (∀ i, given w c = some (i, false) → i ∉ (call H F instant w c).pool ∧ i < (call H F instant w c).gens.length)
    ∧ (∀ i, i < w.gens.length → i ∉ w.pool → i ∉ (call H F instant w c).pool) := by
  have hnew : w.gens.length ∉ w.pool := fun hm => Nat.lt_irrefl _ (h.bound _ hm)
  have hnd : (w.pool ++ [w.gens.length]).Nodup := by
    rw [List.nodup_append]
    exact ⟨h.nodup, by simp, by intro a ha b hb; simp at hb; subst hb; intro e; subst e; exact hnew ha⟩
  have hb : ∀ (dom : Bytes) (now : Int) (rnd : Bytes), ∀ i ∈ w.pool ++ [w.gens.length], i < (make instant dom now rnd w).gens.length := by
    intro dom now rnd i hi
    simp only [List.mem_append, List.mem_singleton] at hi
    simp only [make, List.length_append, List.length_singleton]
    rcases hi with hi | rfl
    · have := h.bound i hi; omega
    · omega
  cases c with
  | getPrivate now rnd =>
    unfold call
    cases hp : w.priv with
    | some j =>
      refine ⟨h, fun i hi => hi, fun i hi => .inl hi, Nat.le_refl _, ?_, ?_, fun _ _ h => h⟩
      · intro i hi
        simp only [given, hp, Option.getD_some, Option.some.injEq, Prod.mk.injEq, and_true] at hi
        exact hi ▸ h.priv j hp
      · intro i hi; simp [given] at hi
    | none =>
      refine ⟨⟨hnd, hb _ _ _, ?_, ?_⟩, ?_, ?_, ?_, ?_, ?_, ?_⟩
      · intro i hi; simp only [Option.some.injEq] at hi; subst hi; simp
      · intro i hi; exact List.mem_append_left _ (h.pub i hi)
      · intro i hi; exact List.mem_append_left _ hi
      · intro i hi; simpa using hi
      · simp [make]
      · intro i hi
        simp only [given, hp, Option.getD_none, Option.some.injEq, Prod.mk.injEq, and_true] at hi
        subst hi; simp
      · intro i hi; simp [given] at hi
      · intro i hi hn; simp only [List.mem_append, List.mem_singleton]; rintro (h | h)
        · exact hn h
        · omega
  | getPublic now rnd =>
    unfold call
    cases hp : w.pub with
    | some j =>
      refine ⟨h, fun i hi => hi, fun i hi => .inl hi, Nat.le_refl _, ?_, ?_, fun _ _ h => h⟩
      · intro i hi
        simp only [given, hp, Option.getD_some, Option.some.injEq, Prod.mk.injEq, and_true] at hi
        exact hi ▸ h.pub j hp
      · intro i hi; simp [given] at hi
    | none =>
      refine ⟨⟨hnd, hb _ _ _, ?_, ?_⟩, ?_, ?_, ?_, ?_, ?_, ?_⟩
      · intro i hi; exact List.mem_append_left _ (h.priv i hi)
      · intro i hi; simp only [Option.some.injEq] at hi; subst hi; simp
      · intro i hi; exact List.mem_append_left _ hi
      · intro i hi; simpa using hi
      · simp [make]
      · intro i hi
        simp only [given, hp, Option.getD_none, Option.some.injEq, Prod.mk.injEq, and_true] at hi
        subst hi; simp
      · intro i hi; simp [given] at hi
      · intro i hi hn; simp only [List.mem_append, List.mem_singleton]; rintro (h | h)
        · exact hn h
        · omega
  | newPrivate dom now rnd =>
    unfold call
    refine ⟨⟨hnd, hb _ _ _, ?_, ?_⟩, ?_, ?_, ?_, ?_, ?_, ?_⟩
    · intro i hi; exact List.mem_append_left _ (h.priv i hi)
    · intro i hi; exact List.mem_append_left _ (h.pub i hi)
    · intro i hi; exact List.mem_append_left _ hi
    · intro i hi; simpa using hi
    · simp [make]
    · intro i hi
      simp only [given, Option.some.injEq, Prod.mk.injEq, and_true] at hi
      subst hi; simp
    · intro i hi; simp [given] at hi
    · intro i hi hn; simp only [List.mem_append, List.mem_singleton]; rintro (h | h)
      · exact hn h
      · omega
  | newOther dom now rnd =>
    unfold call
    refine ⟨⟨h.nodup, ?_, h.priv, h.pub⟩, fun i hi => hi, fun i hi => .inl hi, ?_, ?_, ?_, fun _ _ h => h⟩
    · intro i hi; exact hb dom now rnd i (List.mem_append_left _ hi)
    · simp [make]
    · intro i hi; simp [given] at hi
    · intro i hi
      simp only [given, Option.some.injEq, Prod.mk.injEq, and_true] at hi
      subst hi
      exact ⟨hnew, by simp [make]⟩
  | read ix n =>
    cases hx : w.gens[ix]? with
    | some g =>
      simp only [call, hx]
      refine ⟨⟨h.nodup, by simpa using h.bound, h.priv, h.pub⟩, fun i hi => hi, fun i hi => .inl hi, by simp, ?_, ?_, fun _ _ h => h⟩ <;>
        (intro i hi; simp [given] at hi)
    | none =>
      simp only [call, hx]
      refine ⟨h, fun i hi => hi, fun i hi => .inl hi, Nat.le_refl _, ?_, ?_, fun _ _ h => h⟩ <;> (intro i hi; simp [given] at hi)
  | kick now =>
    simp only [call]
    refine ⟨⟨h.nodup, ?_, h.priv, h.pub⟩, fun i hi => hi, fun i hi => .inl hi, ?_, ?_, ?_, fun _ _ h => h⟩
    · intro i hi; simp only [foldl_length]; exact h.bound i hi
    · rw [foldl_length]; exact Nat.le_refl _
    · intro i hi; simp [given] at hi
    · intro i hi; simp [given] at hi

theorem foldl_kept (instant : Bytes → D) : ∀ (cs : List Call) (w : World D), Kept w →
    Kept (cs.foldl (call H F instant) w) ∧ (∀ i ∈ w.pool, i ∈ (cs.foldl (call H F instant) w).pool)
    ∧ (∀ i, i < w.gens.length → i ∉ w.pool → i ∉ (cs.foldl (call H F instant) w).pool)
  | [], w, h => ⟨h, fun _ h => h, fun _ _ h => h⟩
  | c :: cs, w, h => by
    obtain ⟨h1, h2, _, h4, _, _, h7⟩ := call_kept (H := H) (F := F) instant w c h
    obtain ⟨g1, g2, g3⟩ := foldl_kept instant cs _ h1
    exact ⟨g1, fun i hi => g2 i (h2 i hi), fun i hi hn => g3 i (by omega) (h7 i hi hn)⟩

theorem kept_empty : Kept ({} : World D) := ⟨by simp, by simp, by simp, by simp⟩

/-- After any history, a kick makes every generator that some call before gave as the private one, the public one or a new private one
absorb its own reading of the clock, once: the inner generator is reseeded with it, and the digest of it and of the old state is the new state.
The generators that were made without being added to the pool stay as they are. -/
theorem C131_partial (instant : Bytes → D) (before after : List Call) (c : Call) (i : Nat) (pooled : Bool) (now : Nat → Nat) (g : Gen D)
    (hi : given (calls H F instant before) c = some (i, pooled))
    (hg : (calls H F instant (before ++ c :: after)).gens[i]? = some g) :
    (calls H F instant (before ++ c :: after ++ [.kick now])).gens[i]?
      = some (if pooled then { drbg := F.reseed g.drbg (be64 (now i)), state := H (be64 (now i) ++ g.state), counter := g.counter } else g) := by
  have k0 := (foldl_kept (H := H) (F := F) instant before {} kept_empty).1
  obtain ⟨k1, _, _, _, k5, k6, _⟩ := call_kept (H := H) (F := F) instant (calls H F instant before) c k0
  obtain ⟨k2, k8, k9⟩ := foldl_kept (H := H) (F := F) instant after _ k1
  have e : calls H F instant (before ++ c :: after) = after.foldl (call H F instant) (call H F instant (calls H F instant before) c) := by
    simp [calls, List.foldl_append]
  have e2 : calls H F instant (before ++ c :: after ++ [.kick now]) = call H F instant (calls H F instant (before ++ c :: after)) (.kick now) := by
    simp [calls, List.foldl_append]
  rw [e2]
  have hk : Kept (calls H F instant (before ++ c :: after)) := by rw [e]; exact k2
  show ((calls H F instant (before ++ c :: after)).pool.foldl (kickOne H F now) _)[i]? = _
  rw [kick_fold now _ _ hk.nodup, hg, Option.map_some]
  congr 1
  cases pooled with
  | true =>
    rw [if_pos (by rw [e]; exact k8 i (k5 i hi))]
    rfl
  | false =>
    rw [if_neg (by rw [e]; exact k9 i (k6 i hi).2 (k6 i hi).1)]
    rfl

/-- A generator made after the first kick, another one that is not pooled, and a second kick. -/
example : ((calls exH exF (fun _ => ()) [.getPublic 5 (List.replicate 32 9), .kick fun _ => 1, .newOther [1] 6 (List.replicate 32 8),
      .newPrivate [2] 7 (List.replicate 32 7), .getPublic 8 (List.replicate 32 6), .kick fun i => 2 + i]).gens.map fun g => (g.state.take 9, g.counter))
    = [([0, 0, 0, 0, 0, 0, 0, 2, 0], 5), ([8, 8, 8, 8, 8, 8, 8, 8, 8], 6), ([0, 0, 0, 0, 0, 0, 0, 4, 7], 7)] := by decide +kernel

/-- Kicks at different times lead to different states: else there is a collision of the digest. -/
theorem C131_times (g : Gen D) (s t : Nat) (hs : s < 2 ^ 64) (ht : t < 2 ^ 64) (hst : s ≠ t) :
    (quickReseedKick H F s g).state ≠ (quickReseedKick H F t g).state ∨ Collision H := by
  by_cases h : (quickReseedKick H F s g).state = (quickReseedKick H F t g).state
  · refine .inr ⟨_, _, ?_, h⟩
    intro h'
    have h8 := List.append_cancel_right h'
    exact hst (Offer.be64_inj hs ht h8)
  · exact .inl h

/-- Two threads that make a generator at the same time: both are done, and the first generator is not in the pool, so no kick will
ever reach it. -/
theorem C131_refuted (i j : Nat) (h : i ≠ j) (s : Makers) (hi : s.threads[i]? = some .started) (hj : s.threads[j]? = some .started)
    (hn : i ∉ s.pool) :
    let s' := [i, j, i, j].foldl makerStep s
    s'.threads[i]? = some .done ∧ s'.threads[j]? = some .done ∧ j ∈ s'.pool ∧ i ∉ s'.pool := by
  have li : i < s.threads.length := by
    rcases Nat.lt_or_ge i s.threads.length with h | h
    · exact h
    · rw [List.getElem?_eq_none h] at hi; cases hi
  have lj : j < s.threads.length := by
    rcases Nat.lt_or_ge j s.threads.length with h | h
    · exact h
    · rw [List.getElem?_eq_none h] at hj; cases hj
  have e1 : makerStep s i = { s with threads := s.threads.set i (.seen s.pool) } := by simp only [makerStep, hi]
  have e2 : makerStep { s with threads := s.threads.set i (.seen s.pool) } j
      = { s with threads := (s.threads.set i (.seen s.pool)).set j (.seen s.pool) } := by
    simp only [makerStep, List.getElem?_set_ne h, hj]
  have e3 : makerStep { s with threads := (s.threads.set i (.seen s.pool)).set j (.seen s.pool) } i
      = { pool := s.pool ++ [i], threads := ((s.threads.set i (.seen s.pool)).set j (.seen s.pool)).set i .done } := by
    simp only [makerStep, List.getElem?_set_ne (Ne.symm h), List.getElem?_set_self li]
  have lj2 : j < (s.threads.set i (.seen s.pool)).length := by simpa using lj
  have e4 : makerStep { pool := s.pool ++ [i], threads := ((s.threads.set i (.seen s.pool)).set j (.seen s.pool)).set i .done } j
      = { pool := s.pool ++ [j], threads := (((s.threads.set i (.seen s.pool)).set j (.seen s.pool)).set i .done).set j .done } := by
    simp only [makerStep, List.getElem?_set_ne h, List.getElem?_set_self lj2]
  intro s'
  have e : s' = { pool := s.pool ++ [j], threads := (((s.threads.set i (.seen s.pool)).set j (.seen s.pool)).set i .done).set j .done } := by
    show makerStep (makerStep (makerStep (makerStep s i) j) i) j = _
    rw [e1, e2, e3, e4]
  rw [e]
  refine ⟨?_, ?_, by simp, by simp [hn, h]⟩
  · rw [List.getElem?_set_ne (Ne.symm h), List.getElem?_set_self (by simpa using li)]
  · rw [List.getElem?_set_self (by simpa using lj)]

example : ([0, 1, 0, 1].foldl makerStep { threads := [.started, .started] }).pool = [1] := by decide

/-! ## C132 -/

/-- A challenge is 44 characters long and determines its 32 random bytes. -/
theorem C132 (random : Bytes) (h : random.length = 32) :
    (newRandomChallenge random).length = 44 ∧ b64Decode (newRandomChallenge random) = some random := by
  refine ⟨?_, b64Decode_encode random⟩
  have key : ∀ (n : Nat) (b : Bytes), b.length = 3 * n + 2 → (b64Encode b).length = 4 * n + 4 := by
    intro n
    induction n with
    | zero =>
      intro b hb
      match b, hb with
      | [_, _], _ => rfl
    | succ n ih =>
      intro b hb
      match b, hb with
      | a :: c :: d :: b, hb =>
        simp only [List.length_cons] at hb
        simp only [b64Encode, List.length_cons, ih b (by omega)]
        omega
  exact key 10 random h

example : newRandomChallenge (List.replicate 32 255) = "//////////////////////////////////////////8=".toList := by decide +kernel

end FcRetrieval.Prng
