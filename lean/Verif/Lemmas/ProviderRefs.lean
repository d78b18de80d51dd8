import Verif.Lemmas.Provider
/-!
# What the references in the offer store of the provider show
-/
set_option linter.unusedSimpArgs false

namespace FcRetrieval.Provider
open FcRetrieval.Ids (Id Proper)
open FcRetrieval.Merkle (Hash)
open FcRetrieval.Offer (CidOffer Built)
open FcRetrieval.OfferMgr

theorem mem_mset {κ ν : Type} [DecidableEq κ] {k : κ} {v : ν} {e : κ × ν} : ∀ {m : List (κ × ν)}, e ∈ mset m k v → e = (k, v) ∨ e ∈ m
  | [], h => by simpa [mset] using h
  | (k', v') :: m, h => by
    unfold mset at h
    split at h
    · rcases List.mem_cons.1 h with h | h
      · exact Or.inl h
      · exact Or.inr (by simp [h])
    · rcases List.mem_cons.1 h with h | h
      · exact Or.inr (by simp [h])
      · rcases mem_mset h with h | h
        · exact Or.inl h
        · exact Or.inr (by simp [h])

variable {R : Type}

/-- Every reference in the storage satisfies `P`. -/
def Refs (st : Storage R) (P : R → Prop) : Prop := ∀ x ∈ st, ∀ e ∈ x.2, P e.2

theorem refs_mono {st : Storage R} {P Q : R → Prop} (h : Refs st P) (hpq : ∀ r, P r → Q r) : Refs st Q :=
  fun x hx e he => hpq _ (h x hx e he)

theorem refs_addUnder {st : Storage R} {P : R → Prop} (h : Refs st P) (d : Bytes) {r : R} (hr : P r) (s : List Char) :
    Refs (addUnder d r st s) P := by
  unfold addUnder
  split
  · intro x hx e he
    rcases mem_mset hx with rfl | hx
    · rcases mem_mset he with rfl | he
      · exact hr
      · cases he
    · exact h x hx e he
  · rename_i dm hdm
    intro x hx e he
    rcases mem_mset hx with rfl | hx
    · rcases mem_mset he with rfl | he
      · exact hr
      · exact h _ (mget_some_mem hdm) e he
    · exact h x hx e he

theorem refs_addAll {P : R → Prop} (d : Bytes) {r : R} (hr : P r) : ∀ (ss : List (List Char)) {st : Storage R}, Refs st P →
    Refs (ss.foldl (addUnder d r) st) P
  | [], _, h => h
  | s :: ss, _, h => refs_addAll d hr ss (refs_addUnder h d hr s)

theorem refs_add {H512 : Hash} {deref : R → CidOffer} {t : Clock} {st st' : Storage R} {P : R → Prop} {r : R} {ok : Bool}
    (h : Refs st P) (hr : P r) (ha : add H512 deref t st r = .ok (st', ok)) : Refs st' P := by
  unfold add at ha
  split at ha
  · cases ha; exact h
  · cases hd : digestOf H512 (deref r) with
    | error e => simp [hd, Bind.bind, Except.bind] at ha
    | ok d =>
      simp only [hd, Bind.bind, Except.bind] at ha
      split at ha
      · cases ha; exact h
      · split at ha
        · cases ha; exact h
        · cases ha
          exact refs_addAll d hr _ h

theorem refs_removeUnder {P : R → Prop} (d : Bytes) : ∀ (ss : List (List Char)) {st st' : Storage R}, Refs st P →
    removeUnder d ss st = .ok st' → Refs st' P
  | [], _, _, h, he => by cases he; exact h
  | s :: ss, st, st', h, he => by
    unfold removeUnder at he
    split at he
    · cases he
    · rename_i dm hdm
      refine refs_removeUnder d ss ?_ he
      intro x hx e he'
      rcases mem_mset hx with rfl | hx
      · exact h _ (mget_some_mem hdm) e (List.mem_filter.1 he').1
      · exact h x hx e he'

theorem refs_removeAll {H512 : Hash} {P : R → Prop} : ∀ (os : List CidOffer) {st st' : Storage R}, Refs st P →
    removeAll H512 os st = .ok st' → Refs st' P
  | [], _, _, h, he => by cases he; exact h
  | o :: os, st, st', h, he => by
    unfold removeAll at he
    cases hd : digestOf H512 o with
    | error e => simp [hd, Bind.bind, Except.bind] at he
    | ok d =>
      simp only [hd, Bind.bind, Except.bind] at he
      split at he
      · cases he
      · rename_i st1 h1
        exact refs_removeAll os (refs_removeUnder d _ h h1) he

theorem refs_get {H512 : Hash} {deref : R → CidOffer} {order : DigestMap R → DigestMap R} (hord : ∀ dm, (order dm).Perm dm) {t : Clock}
    {st st' : Storage R} {P : R → Prop} {c : Id} {res : List CidOffer} (h : Refs st P)
    (hg : get H512 deref order t st c = .ok (st', res)) : Refs st' P ∧ ∀ o ∈ res, ∃ r, P r ∧ o = deref r := by
  unfold OfferMgr.get at hg
  split at hg
  · cases hg; exact ⟨h, by simp⟩
  · rename_i dm hdm
    simp only [Bind.bind, Except.bind] at hg
    split at hg
    · cases hg
    · rename_i st1 h1
      cases hg
      refine ⟨refs_removeAll _ h h1, ?_⟩
      intro o ho
      obtain ⟨e, he, rfl⟩ := List.mem_map.1 (List.mem_filter.1 ho).1
      exact ⟨e.2, h _ (mget_some_mem hdm) e ((hord dm).mem_iff.1 he), rfl⟩

theorem mem_appendUpTo (max : Int) : ∀ (l offers : List CidOffer) {o : CidOffer}, o ∈ (appendUpTo max offers l).1 → o ∈ offers ∨ o ∈ l
  | [], offers, o, h => Or.inl h
  | x :: l, offers, o, h => by
    unfold appendUpTo at h
    split at h
    · simp at h
      rcases h with h | rfl
      · exact Or.inl h
      · exact Or.inr (by simp)
    · rcases mem_appendUpTo max l _ h with h | h
      · simp at h
        rcases h with h | rfl
        · exact Or.inl h
        · exact Or.inr (by simp)
      · exact Or.inr (by simp [h])

theorem refs_rangeGo {H512 : Hash} {deref : R → CidOffer} {order : DigestMap R → DigestMap R} (hord : ∀ dm, (order dm).Perm dm) {t : Clock}
    {max : Int} {P : R → Prop} : ∀ (entries : List (List Char)) {st st' : Storage R} {offers res : List CidOffer} {found : Bool}, Refs st P →
      (∀ o ∈ offers, ∃ r, P r ∧ o = deref r) → rangeGo H512 deref order t max entries st offers = .ok (st', res, found) →
      Refs st' P ∧ (∀ o ∈ res, ∃ r, P r ∧ o = deref r) ∧ (found = true → res ≠ [])
  | [], _, _, _, _, _, h, ho, he => by
    unfold rangeGo at he
    cases he
    refine ⟨h, ho, fun hf h0 => ?_⟩
    subst h0
    simp at hf
  | entry :: rest, st, st', offers, res, found, h, ho, he => by
    unfold rangeGo at he
    split at he
    · cases he
      exact ⟨h, ho, by simp⟩
    · simp only [Bind.bind, Except.bind] at he
      split at he
      · cases he
      · rename_i x hx
        obtain ⟨st1, temp⟩ := x
        obtain ⟨h1, h2⟩ := refs_get hord h hx
        have hm : ∀ o ∈ (appendUpTo max offers temp).1, ∃ r, P r ∧ o = deref r := by
          intro o hm
          rcases mem_appendUpTo max temp offers hm with hm | hm
          · exact ho o hm
          · exact h2 o hm
        split at he
        · rename_i offers' ha
          cases he
          rw [ha] at hm
          refine ⟨h1, hm, fun hf h0 => ?_⟩
          subst h0
          simp at hf
        · rename_i offers' ha
          rw [ha] at hm
          exact refs_rangeGo hord rest h1 hm he

/-- What the range lookup returns is what references in the store show. -/
theorem refs_range {H512 : Hash} {deref : R → CidOffer} {order : DigestMap R → DigestMap R} (hord : ∀ dm, (order dm).Perm dm) {t : Clock}
    {m m' : Mgr R} {P : R → Prop} {a b : Id} {max : Int} {offers : List CidOffer} {found : Bool} (h : Refs m.dht P)
    (hg : getDhtRange H512 deref order t m a b max = .ok (m', offers, found)) :
    Refs m'.dht P ∧ (∀ o ∈ offers, ∃ r, P r ∧ o = deref r) ∧ (found = true → offers ≠ []) := by
  unfold getDhtRange at hg
  simp only [Bind.bind, Except.bind] at hg
  split at hg
  · cases hg
  · rename_i x hx
    obtain ⟨ring, entries⟩ := x
    dsimp only at hg
    split at hg
    · cases hg
      exact ⟨h, by simp, by simp⟩
    · rename_i es
      split at hg
      · cases hg
      · rename_i y hy
        obtain ⟨s, os, ok⟩ := y
        cases hg
        exact refs_rangeGo hord _ h (by simp) hy

theorem refs_addDht {H512 : Hash} {deref : R → CidOffer} {t : Clock} {m m' : Mgr R} {P : R → Prop} {r : R} {ok : Bool}
    (h : Refs m.dht P) (hr : (deref r).cids.length = 1 → P r) (ha : addDht H512 deref t m r = .ok (m', ok)) : Refs m'.dht P := by
  unfold addDht at ha
  split at ha
  · rename_i c hc
    simp only [Bind.bind, Except.bind] at ha
    split at ha
    · cases ha
    · split at ha
      · cases ha
      · rename_i x hx
        obtain ⟨s, ok'⟩ := x
        cases ha
        exact refs_add h (hr (by rw [hc]; rfl)) hx
  · cases ha; exact h

theorem addGroup_dht {H512 : Hash} {deref : R → CidOffer} {t : Clock} {m m' : Mgr R} {r : R} {ok : Bool}
    (ha : addGroup H512 deref t m r = .ok (m', ok)) : m'.dht = m.dht ∧ m'.ring = m.ring := by
  unfold addGroup at ha
  split at ha
  · cases ha; exact ⟨rfl, rfl⟩
  · simp only [Bind.bind, Except.bind] at ha
    split at ha
    · cases ha
    · cases ha; exact ⟨rfl, rfl⟩

end FcRetrieval.Provider
