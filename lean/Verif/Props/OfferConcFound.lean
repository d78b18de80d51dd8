import Verif.Props.OfferConc
/-!
# What interleaved lookups find: C23
-/
set_option linter.unusedSimpArgs false
namespace FcRetrieval.OfferMgr.Conc
open FcRetrieval.Ids (Id Proper)
open FcRetrieval.Merkle (Hash exId exId_proper)
open FcRetrieval.Offer (CidOffer InRange)

theorem mget_in {κ ν : Type} [DecidableEq κ] {k : κ} {v : ν} : ∀ {m : List (κ × ν)}, mget m k = some v → (k, v) ∈ m
  | (k', v') :: m, h => by
    unfold mget at h
    split at h
    · cases h
      rename_i hk
      subst hk
      exact List.mem_cons_self
    · exact List.mem_cons_of_mem _ (mget_in h)

theorem in_mset {κ ν : Type} [DecidableEq κ] {k : κ} {v : ν} {e : κ × ν} : ∀ {m : List (κ × ν)}, e ∈ mset m k v → e = (k, v) ∨ e ∈ m
  | [], h => by simp only [mset, List.mem_cons, List.not_mem_nil, or_false] at h; exact Or.inl h
  | (k', v') :: m, h => by
    unfold mset at h
    split at h
    · rcases List.mem_cons.1 h with h | h
      · exact Or.inl h
      · exact Or.inr (List.mem_cons_of_mem _ h)
    · rcases List.mem_cons.1 h with h | h
      · exact Or.inr (by rw [h]; exact List.mem_cons_self)
      · rcases in_mset h with h | h
        · exact Or.inl h
        · exact Or.inr (List.mem_cons_of_mem _ h)

/-- What a lookup of `c` may answer. -/
def Fits (calls : List Call) (past : List (Nat × Clock)) (i : Nat) (c : Id) (o : CidOffer) : Prop :=
  .add o ∈ calls ∧ Ids.toStr c ∈ Ids.mapToString o.cids ∧ ∃ e ∈ past, e.1 = i ∧ expired o e.2 = false

/-- What is known of a call; `own` tells for which CID a digest map was made. -/
def Knows (H512 : Hash) (calls : List Call) (past : List (Nat × Clock)) (own : List Key) (i : Nat) : Call → Pc → Prop
  | .add o, .check _ d => digestOf H512 o = .ok d
  | .add o, .fresh d => digestOf H512 o = .ok d
  | .add o, .next d rest => digestOf H512 o = .ok d ∧ ∀ k ∈ rest, k ∈ Ids.mapToString o.cids
  | .add o, .create d k rest => digestOf H512 o = .ok d ∧ ∀ k' ∈ k :: rest, k' ∈ Ids.mapToString o.cids
  | .add o, .write d k a rest => digestOf H512 o = .ok d ∧ own[a]? = some k ∧ ∀ k' ∈ k :: rest, k' ∈ Ids.mapToString o.cids
  | .get c, .scan a => own[a]? = some (Ids.toStr c)
  | .get c, .wait _ res => ∀ o ∈ res, Fits calls past i c o
  | .get c, .clean _ res => ∀ o ∈ res, Fits calls past i c o
  | .get c, .done (.found res) => ∀ o ∈ res, Fits calls past i c o
  | .byDigest d, .iterate d' => d' = d
  | .byDigest d, .done (.one (some o)) => .add o ∈ calls ∧ digestOf H512 o = .ok d
  | _, .start => True
  | .add _, .done (.added _) => True
  | .byDigest _, .done (.one none) => True
  | _, .crashed => True
  | _, _ => False

/-- What holds of the storage at any time. -/
structure Filed (H512 : Hash) (calls : List Call) (own : List Key) (s : Shared) : Prop where
  len : own.length = s.heap.length
  map : ∀ (k : Key) (a : Nat), mget s.cidMap k = some a → own[a]? = some k
  ent : ∀ (a : Nat) (d : Bytes) (o : CidOffer), (d, o) ∈ s.dmap a →
    .add o ∈ calls ∧ digestOf H512 o = .ok d ∧ ∃ k, own[a]? = some k ∧ k ∈ Ids.mapToString o.cids

/-- And of the calls. -/
structure Sound (H512 : Hash) (calls : List Call) (past : List (Nat × Clock)) (own : List Key) (s : Sys) : Prop where
  filed : Filed H512 calls own s.shared
  call : ∀ (i : Nat) (call : Call) (pc : Pc), s.threads[i]? = some (call, pc) → call ∈ calls
  thr : ∀ (i : Nat) (call : Call) (pc : Pc), s.threads[i]? = some (call, pc) → Knows H512 calls past own i call pc

theorem own_more {own : List Key} (more : List Key) {a : Nat} {k : Key} (h : own[a]? = some k) : (own ++ more)[a]? = some k := by
  have : a < own.length := by
    rcases Nat.lt_or_ge a own.length with h' | h'
    · exact h'
    · rw [List.getElem?_eq_none h'] at h; cases h
  rw [List.getElem?_append_left this]
  exact h

theorem fits_more {calls : List Call} {past : List (Nat × Clock)} {i : Nat} {c : Id} (e : Nat × Clock) {res : List CidOffer}
    (h : ∀ o ∈ res, Fits calls past i c o) : ∀ o ∈ res, Fits calls (past ++ [e]) i c o := by
  intro o ho
  obtain ⟨h1, h2, e', h3, h4⟩ := h o ho
  exact ⟨h1, h2, e', List.mem_append_left _ h3, h4⟩

theorem knows_more {H512 : Hash} {calls : List Call} {past : List (Nat × Clock)} {own : List Key} {i : Nat} (e : Nat × Clock) (more : List Key) :
    ∀ {call : Call} {pc : Pc}, Knows H512 calls past own i call pc → Knows H512 calls (past ++ [e]) (own ++ more) i call pc := by
  intro call pc h
  cases call with
  | add o =>
    cases pc with
    | write d k a rest => exact ⟨h.1, own_more more h.2.1, h.2.2⟩
    | done out => cases out <;> exact h
    | _ => exact h
  | get c =>
    cases pc with
    | scan a => exact own_more more h
    | wait todo res => exact fits_more e h
    | clean todo res => exact fits_more e h
    | done out =>
      cases out with
      | found res => exact fits_more e h
      | _ => exact h
    | _ => exact h
  | byDigest d =>
    cases pc with
    | done out =>
      cases out with
      | one o => cases o <;> exact h
      | _ => exact h
    | _ => exact h

theorem filed_del {H512 : Hash} {calls : List Call} {own : List Key} {s : Shared} (h : Filed H512 calls own s) (a : Nat) (d : Bytes) :
    Filed H512 calls own { s with heap := s.heap.set a (mdel (s.dmap a) d) } := by
  refine ⟨by simp [h.len], h.map, ?_⟩
  intro b d' o ho
  rw [dmap_set] at ho
  split at ho
  · rename_i hb
    rw [← hb.1]
    exact h.ent a d' o (List.mem_filter.1 ho).1
  · exact h.ent b d' o ho

theorem step_sound {H512 : Hash} {order : DigestMap CidOffer → DigestMap CidOffer} (hord : ∀ dm, (order dm).Perm dm) {calls : List Call} {past : List (Nat × Clock)}
    {own : List Key} {s : Shared} {i : Nat} {t : Clock} {call : Call} {pc : Pc} (hf : Filed H512 calls own s) (hc : call ∈ calls)
    (hk : Knows H512 calls past own i call pc) :
    ∃ more, Filed H512 calls (own ++ more) (step H512 order t s call pc).1 ∧
      Knows H512 calls (past ++ [(i, t)]) (own ++ more) i call (step H512 order t s call pc).2 := by
  have hk' := knows_more (i, t) [] hk
  rw [List.append_nil] at hk'
  have same : ∀ (s' : Shared) (pc' : Pc), Filed H512 calls own s' → Knows H512 calls (past ++ [(i, t)]) own i call pc' →
      step H512 order t s call pc = (s', pc') → ∃ more, Filed H512 calls (own ++ more) (step H512 order t s call pc).1 ∧
      Knows H512 calls (past ++ [(i, t)]) (own ++ more) i call (step H512 order t s call pc).2 := by
    intro s' pc' h1 h2 h3
    exact ⟨[], by rw [h3, List.append_nil]; exact h1, by rw [h3, List.append_nil]; exact h2⟩
  cases call with
  | add o =>
    cases pc with
    | start =>
      cases ho : o.cids with
      | nil => exact same s (.done (.added false)) hf trivial (by simp only [step, addStep, ho])
      | cons c cs =>
        cases hd : digestOf H512 o with
        | error f => exact same s .crashed hf trivial (by simp only [step, addStep, ho, hd])
        | ok d =>
          cases hm : mget s.cidMap (Ids.toStr c) with
          | some a => exact same s (.check a d) hf hd (by simp only [step, addStep, ho, hd, hm])
          | none => exact same s (.fresh d) hf hd (by simp only [step, addStep, ho, hd, hm])
    | check a d =>
      by_cases hm : (mget (s.dmap a) d).isSome
      · exact same s (.done (.added true)) hf trivial (by simp only [step, addStep, hm, if_true])
      · exact same s (.fresh d) hf hk (by simp only [step, addStep, hm]; rfl)
    | fresh d =>
      by_cases hm : expired o t
      · exact same s (.done (.added false)) hf trivial (by simp only [step, addStep, hm, if_true])
      · exact same s (.next d (Ids.mapToString o.cids)) hf ⟨hk, fun k h => h⟩ (by simp only [step, addStep, hm]; rfl)
    | next d rest =>
      cases rest with
      | nil => exact same s (.done (.added true)) hf trivial (by simp only [step, addStep])
      | cons k rest =>
        cases hm : mget s.cidMap k with
        | some a => exact same s (.write d k a rest) hf ⟨hk.1, hf.map k a hm, hk.2⟩ (by simp only [step, addStep, hm])
        | none => exact same s (.create d k rest) hf hk (by simp only [step, addStep, hm])
    | create d k rest =>
      by_cases h1 : s.readers > 0
      · exact same s (.create d k rest) hf hk (by simp only [step, addStep, h1, if_true])
      · by_cases h2 : s.unlocked > 0
        · exact same s .crashed hf trivial (by simp only [step, addStep, h1, h2, if_true, if_false])
        · have he : step H512 order t s (.add o) (.create d k rest) =
              ({ s with cidMap := mset s.cidMap k s.heap.length, heap := s.heap ++ [[]] }, .write d k s.heap.length rest) := by
            simp only [step, addStep, h1, h2, if_false]
          have hn : (own ++ [k])[s.heap.length]? = some k := by
            rw [← hf.len]
            simp
          refine ⟨[k], ?_, ?_⟩
          · rw [he]
            refine ⟨by simp [hf.len], ?_, ?_⟩
            · intro k' a h
              rw [mget_mset] at h
              split at h
              · rename_i hkk
                cases h
                rw [← hkk]
                exact hn
              · exact own_more [k] (hf.map k' a h)
            · intro a d' o' h
              rw [dmap_append] at h
              obtain ⟨g1, g2, k', g3, g4⟩ := hf.ent a d' o' h
              exact ⟨g1, g2, k', own_more [k] g3, g4⟩
          · rw [he]
            exact ⟨hk.1, hn, hk.2⟩
    | write d k a rest =>
      refine same { s with heap := s.heap.set a (mset (s.dmap a) d o) } (.next d rest) ?_ ⟨hk.1, fun k' h => hk.2.2 k' (List.mem_cons_of_mem _ h)⟩ (by simp only [step, addStep])
      refine ⟨by simp [hf.len], hf.map, ?_⟩
      intro b d' o' ho
      rw [dmap_set] at ho
      split at ho
      · rename_i hb
        rw [← hb.1]
        rcases in_mset ho with h | h
        · cases h
          exact ⟨hc, hk.1, k, hk.2.1, hk.2.2 k List.mem_cons_self⟩
        · exact hf.ent a d' o' h
      · exact hf.ent b d' o' ho
    | done out => exact same s (.done out) hf hk' rfl
    | crashed => exact same s .crashed hf trivial rfl
    | _ => exact hk.elim
  | get c =>
    cases pc with
    | start =>
      cases hm : mget s.cidMap (Ids.toStr c) with
      | none => exact same s (.done (.found [])) hf (fun _ h => nomatch h) (by simp only [step, getStep, hm])
      | some a => exact same s (.scan a) hf (hf.map _ a hm) (by simp only [step, getStep, hm])
    | scan a =>
      cases hr : removals H512 (((order (s.dmap a)).map (·.2)).filter (fun o => expired o t)) with
      | none => exact same s .crashed hf trivial (by simp only [step, getStep, hr])
      | some todo =>
        refine same s (.wait todo (((order (s.dmap a)).map (·.2)).filter (fun o => !expired o t))) hf ?_ (by simp only [step, getStep, hr])
        intro o ho
        obtain ⟨h1, h2⟩ := List.mem_filter.1 ho
        obtain ⟨⟨d, o'⟩, h3, h4⟩ := List.mem_map.1 h1
        dsimp only at h4
        subst h4
        obtain ⟨g1, g2, k, g3, g4⟩ := hf.ent a d o' ((hord _).mem_iff.1 h3)
        have hk2 : own[a]? = some (Ids.toStr c) := hk
        rw [hk2] at g3
        cases g3
        exact ⟨g1, g4, (i, t), List.mem_append_right _ List.mem_cons_self, rfl, by simpa using h2⟩
    | wait todo res => exact same { s with readers := s.readers + 1 } (.clean todo res) ⟨hf.len, hf.map, hf.ent⟩ hk' (by simp only [step, getStep])
    | clean todo res =>
      cases todo with
      | nil => exact same { s with readers := s.readers - 1 } (.done (.found res)) ⟨hf.len, hf.map, hf.ent⟩ hk' (by simp only [step, getStep])
      | cons e todo =>
        obtain ⟨d, k⟩ := e
        cases hm : mget s.cidMap k with
        | none => exact same s .crashed hf trivial (by simp only [step, getStep, hm])
        | some a => exact same _ (.clean todo res) (filed_del hf a d) hk' (by simp only [step, getStep, hm])
    | done out => exact same s (.done out) hf hk' rfl
    | crashed => exact same s .crashed hf trivial rfl
    | _ => exact hk.elim
  | byDigest d =>
    cases pc with
    | start => exact same { s with unlocked := s.unlocked + 1 } (.iterate d) ⟨hf.len, hf.map, hf.ent⟩ rfl (by simp only [step, byDigestStep])
    | iterate d' =>
      have hd' : d' = d := hk
      subst hd'
      refine same { s with unlocked := s.unlocked - 1 } (.done (.one (s.view.findSome? (fun e => mget e.2 d')))) ⟨hf.len, hf.map, hf.ent⟩ ?_ (by simp only [step, byDigestStep])
      cases hv : s.view.findSome? (fun e => mget e.2 d') with
      | none => trivial
      | some o =>
        obtain ⟨e, he, hg⟩ := List.exists_of_findSome?_eq_some hv
        obtain ⟨e', _, rfl⟩ := List.mem_map.1 he
        obtain ⟨g1, g2, _⟩ := hf.ent e'.2 d' o (mget_in hg)
        exact ⟨g1, g2⟩
    | done out => exact same s (.done out) hf hk' rfl
    | crashed => exact same s .crashed hf trivial rfl
    | _ => exact hk.elim

theorem run_sound {H512 : Hash} {order : DigestMap CidOffer → DigestMap CidOffer} (hord : ∀ dm, (order dm).Perm dm) {calls : List Call} :
    ∀ (sched past : List (Nat × Clock)) (own : List Key) (s : Sys), Sound H512 calls past own s → ∃ own', Sound H512 calls (past ++ sched) own' (sysRun H512 order s sched)
  | [], past, own, s, h => ⟨own, by rw [List.append_nil]; exact h⟩
  | e :: sched, past, own, s, h => by
    have hstep : ∃ own', Sound H512 calls (past ++ [e]) own' (sysStep H512 order s e) := by
      unfold sysStep
      cases ht : s.threads[e.1]? with
      | none =>
        refine ⟨own, h.filed, h.call, ?_⟩
        intro i call pc hi
        have := knows_more e [] (h.thr i call pc hi)
        rwa [List.append_nil] at this
      | some th =>
        obtain ⟨call, pc⟩ := th
        obtain ⟨more, h1, h2⟩ := step_sound hord (t := e.2) h.filed (h.call _ _ _ ht) (h.thr _ _ _ ht)
        refine ⟨own ++ more, h1, ?_, ?_⟩
        · intro j call' pc' hj
          dsimp only at hj
          rw [List.getElem?_set] at hj
          split at hj
          · split at hj
            · cases hj
              exact h.call _ _ _ ht
            · cases hj
          · exact h.call j call' pc' hj
        · intro j call' pc' hj
          dsimp only at hj
          rw [List.getElem?_set] at hj
          split at hj
          · rename_i hij
            subst hij
            split at hj
            · cases hj
              exact h2
            · cases hj
          · exact knows_more e more (h.thr j call' pc' hj)
    obtain ⟨own', h'⟩ := hstep
    obtain ⟨own2, h2⟩ := run_sound hord sched (past ++ [e]) own' _ h'
    refine ⟨own2, ?_⟩
    rw [List.append_assoc] at h2
    exact h2

theorem sound_new (H512 : Hash) (calls : List Call) : Sound H512 calls [] [] (begin_ newShared calls) := by
  have hst : ∀ (i : Nat) (call : Call) (pc : Pc), (begin_ newShared calls).threads[i]? = some (call, pc) → call ∈ calls ∧ pc = .start := by
    intro i call pc hi
    obtain ⟨c, h1, h2⟩ := List.mem_map.1 (List.mem_of_getElem? hi)
    cases h2
    exact ⟨h1, rfl⟩
  refine ⟨⟨rfl, (fun _ _ h => nomatch h), fun a d o h => ?_⟩, fun i call pc hi => (hst i call pc hi).1, fun i call pc hi => ?_⟩
  · simp [begin_, newShared, Shared.dmap] at h
  · rw [(hst i call pc hi).2]
    cases call <;> trivial

/-- **C23 (partial).** Whatever calls run on a storage, interleaved in whatever way, a lookup that returns answers only offers that were given to an addition, are for
the CID that was asked for, and had not expired at some moment of the lookup.  What is missing: that it answers all of them (`C23_lost_refuted`), and that it returns at
all (`C23_lookup_crash_refuted`). -/
theorem C23_found_partial {H512 : Hash} {order : DigestMap CidOffer → DigestMap CidOffer} (hord : ∀ dm, (order dm).Perm dm) (calls : List Call) (sched : List (Nat × Clock)) (hr : ∀ o, Call.add o ∈ calls → InRange o) (i : Nat)
    (c : Id) (hc : Proper c) (l : List CidOffer)
    (hi : (sysRun H512 order (begin_ newShared calls) sched).threads[i]? = some (.get c, .done (.found l))) :
    ∀ o ∈ l, Call.add o ∈ calls ∧ c ∈ o.cids ∧ ∃ e ∈ sched, e.1 = i ∧ expired o e.2 = false := by
  obtain ⟨own, h⟩ := run_sound (H512 := H512) hord sched [] [] _ (sound_new H512 calls)
  intro o ho
  obtain ⟨h1, h2, h3⟩ := h.thr _ _ _ hi o ho
  refine ⟨h1, ?_, by simpa using h3⟩
  obtain ⟨c', hc', he⟩ := List.mem_map.1 h2
  rw [(toStr_inj ((hr o h1).2.1 c' hc') hc).1 he] at hc'
  exact hc'

/-- **C23 (partial).** And a lookup by digest that returns an offer returns one that was given to an addition and has that digest. -/
theorem C23_digest_found_partial {H512 : Hash} {order : DigestMap CidOffer → DigestMap CidOffer} (hord : ∀ dm, (order dm).Perm dm) (calls : List Call) (sched : List (Nat × Clock)) (i : Nat) (d : Bytes) (o : CidOffer)
    (hi : (sysRun H512 order (begin_ newShared calls) sched).threads[i]? = some (.byDigest d, .done (.one (some o)))) :
    Call.add o ∈ calls ∧ digestOf H512 o = .ok d := by
  obtain ⟨own, h⟩ := run_sound (H512 := H512) hord sched [] [] _ (sound_new H512 calls)
  exact h.thr _ _ _ hi

/-- Two offers of a content are added, and looked up when one of them has expired: the other is answered. -/
def exSched : List (Nat × Clock) :=
  List.replicate 6 (0, ⟨1000, 0⟩) ++ List.replicate 12 (1, ⟨1000, 0⟩) ++ List.replicate 9 (2, ⟨1600, 0⟩)

example : ∀ o ∈ [exDht 1 2000], Call.add o ∈ [Call.add (exDht 1 2000), .add (exGroup 1 2 1500), .get (exId 1)] ∧ exId 1 ∈ o.cids ∧
    ∃ e ∈ exSched, e.1 = 2 ∧ expired o e.2 = false :=
  C23_found_partial (H512 := fun x => x) (order := fun l => l) (fun _ => .refl _) [.add (exDht 1 2000), .add (exGroup 1 2 1500), .get (exId 1)] exSched
    (by intro o ho; simp at ho; exact ho.elim (fun h => h ▸ exDht_inRange 1) (fun h => h ▸ exGroup_inRange 1 2)) 2 (exId 1) (exId_proper 1) [exDht 1 2000] (by rfl)

/-- An offer is added and then looked up by its digest. -/
def exDigest : Bytes :=
  match digestOf (fun x => x) (exDht 1 2000) with
  | .ok d => d
  | .error _ => []

example := C23_digest_found_partial (H512 := fun x => x) (order := fun l => l) (fun _ => .refl _)
  [.add (exDht 1 2000), .byDigest exDigest] (List.replicate 6 (0, ⟨1000, 0⟩) ++ List.replicate 2 (1, ⟨1000, 0⟩)) 1 exDigest (exDht 1 2000) (by rfl)

end FcRetrieval.OfferMgr.Conc
