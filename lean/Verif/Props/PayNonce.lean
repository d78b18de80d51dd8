import Verif.Spec.PayNonce
import Verif.Spec.PayLocks
set_option linter.unusedSimpArgs false
/-!
# C182: top-ups that overlap
-/

namespace FcRetrieval.PayNonce
open FcRetrieval.PayLocks (Call)

/-- What holds when any two calls exclude each other: numbers handed over are distinct and below the next one; at most one call is under
its locks; the number that it was told is still the next one. -/
structure Inv (s : St) : Prop where
  distinct : s.pool.Pairwise (fun a b => a.1 ≠ b.1)
  below : ∀ m ∈ s.pool, m.1 < s.next
  single : ∀ (i j : Nat) (p q : Pc), s.pcs[i]? = some p → s.pcs[j]? = some q → p.locked = true → q.locked = true → i = j
  current : ∀ (i n : Nat), s.pcs[i]? = some (.told n) → n = s.next

theorem lt_of_get {α : Type} {l : List α} {i : Nat} {x : α} (h : l[i]? = some x) : i < l.length := by
  rcases Nat.lt_or_ge i l.length with h1 | h1
  · exact h1
  · rw [List.getElem?_eq_none h1] at h; cases h

theorem get_set {l : List Pc} {i j : Nat} {x y : Pc} (hi : i < l.length) (h : (l.set i x)[j]? = some y) : (j = i ∧ y = x) ∨ (j ≠ i ∧ l[j]? = some y) := by
  by_cases hij : i = j
  · subst hij
    rw [List.getElem?_set_self hi] at h
    injection h with h
    exact Or.inl ⟨rfl, h.symm⟩
  · rw [List.getElem?_set_ne hij] at h
    exact Or.inr ⟨fun e => hij e.symm, h⟩

theorem inv_step {calls : List Call} (hx : ∀ a ∈ calls, ∀ b ∈ calls, excludes a b = true) {s s' : St} {i : Nat} (hl : s.pcs.length = calls.length)
    (h : Inv s) (hs : step calls s i = some s') : Inv s' ∧ s'.pcs.length = calls.length := by
  unfold step at hs
  cases hc : calls[i]? with
  | none => simp [hc] at hs
  | some c =>
    cases hp : s.pcs[i]? with
    | none => simp [hc, hp] at hs
    | some p =>
      have hlt := lt_of_get hp
      rw [hc, hp] at hs
      cases p with
      | outside =>
        dsimp only at hs
        split at hs
        · cases hs
        · rename_i hany
          injection hs with hs
          subst hs
          simp only [List.any_eq_true, List.mem_range, Bool.and_eq_true, not_exists, not_and] at hany
          have hfree : ∀ (j : Nat) (q : Pc), s.pcs[j]? = some q → q.locked = false := by
            intro j q hj
            have hjl : j < calls.length := hl ▸ lt_of_get hj
            cases hq : q.locked with
            | false => rfl
            | true =>
              have h1 := hany j hjl (by rw [hj]; exact hq)
              rw [List.getElem?_eq_getElem hjl] at h1
              exact absurd (hx c (List.mem_of_getElem? hc) _ (List.getElem_mem hjl)) h1
          refine ⟨⟨h.distinct, h.below, ?_, ?_⟩, by simp [hl]⟩
          · intro a b p q ha hb h1 h2
            rcases get_set hlt ha with ⟨rfl, rfl⟩ | ⟨_, ha⟩
            · rcases get_set hlt hb with ⟨rfl, rfl⟩ | ⟨_, hb⟩
              · rfl
              · rw [hfree b q hb] at h2; cases h2
            · rw [hfree a p ha] at h1; cases h1
          · intro a n ha
            rcases get_set hlt ha with ⟨_, h1⟩ | ⟨_, ha⟩
            · cases h1
            · exact h.current a n ha
      | inside =>
        dsimp only at hs
        injection hs with hs
        subst hs
        refine ⟨⟨h.distinct, h.below, ?_, ?_⟩, by simp [hl]⟩
        · intro a b p q ha hb h1 h2
          rcases get_set hlt ha with ⟨rfl, rfl⟩ | ⟨_, ha'⟩ <;> rcases get_set hlt hb with ⟨rfl, rfl⟩ | ⟨_, hb'⟩
          · rfl
          · exact h.single _ _ _ _ hp hb' rfl h2
          · exact h.single _ _ _ _ ha' hp h1 rfl
          · exact h.single _ _ _ _ ha' hb' h1 h2
        · intro a n ha
          rcases get_set hlt ha with ⟨_, h1⟩ | ⟨_, ha⟩
          · injection h1
          · exact h.current a n ha
      | told n =>
        dsimp only at hs
        injection hs with hs
        subst hs
        have hn := h.current i n hp
        refine ⟨⟨?_, ?_, ?_, ?_⟩, by simp [hl]⟩
        · dsimp only
          rw [List.pairwise_append]
          refine ⟨h.distinct, by simp, fun m hm m' hm' => ?_⟩
          simp at hm'
          subst hm'
          have := h.below m hm
          dsimp only
          omega
        · intro m hm
          dsimp only at hm ⊢
          rcases List.mem_append.1 hm with hm | hm
          · have := h.below m hm; omega
          · simp at hm; subst hm; dsimp only; omega
        · intro a b p q ha hb h1 h2
          rcases get_set hlt ha with ⟨rfl, rfl⟩ | ⟨_, ha'⟩ <;> rcases get_set hlt hb with ⟨rfl, rfl⟩ | ⟨_, hb'⟩
          · rfl
          · exact h.single _ _ _ _ hp hb' rfl h2
          · exact h.single _ _ _ _ ha' hp h1 rfl
          · exact h.single _ _ _ _ ha' hb' h1 h2
        · intro a k ha
          rcases get_set hlt ha with ⟨_, h1⟩ | ⟨hne, ha⟩
          · cases h1
          · exact absurd (h.single _ _ _ _ ha hp rfl rfl) hne
      | sent n =>
        dsimp only at hs
        injection hs with hs
        subst hs
        refine ⟨⟨h.distinct, h.below, ?_, ?_⟩, by simp [hl]⟩
        · intro a b p q ha hb h1 h2
          rcases get_set hlt ha with ⟨rfl, rfl⟩ | ⟨_, ha⟩
          · cases h1
          · rcases get_set hlt hb with ⟨rfl, rfl⟩ | ⟨_, hb⟩
            · cases h2
            · exact h.single _ _ _ _ ha hb h1 h2
        · intro a k ha
          rcases get_set hlt ha with ⟨_, h1⟩ | ⟨_, ha⟩
          · cases h1
          · exact h.current a k ha
      | back n => simp at hs

theorem inv_run {calls : List Call} (hx : ∀ a ∈ calls, ∀ b ∈ calls, excludes a b = true) {sched : List Nat} : ∀ {s s' : St},
    s.pcs.length = calls.length → Inv s → run calls s sched = some s' → Inv s' := by
  induction sched with
  | nil =>
    intro s s' _ h hr
    simp only [run, Option.some.injEq] at hr
    subst hr; exact h
  | cons i is ih =>
    intro s s' hl h hr
    simp only [run] at hr
    obtain ⟨s1, h1, h2⟩ := Option.bind_eq_some_iff.1 hr
    obtain ⟨h3, h4⟩ := inv_step hx hl h h1
    exact ih h4 h3 h2

theorem inv_begin (calls : List Call) (next : Nat) : Inv (begin_ calls next) := by
  refine ⟨List.Pairwise.nil, by simp [begin_], ?_, ?_⟩
  · intro i j p q hi _ hp
    have := List.eq_of_mem_replicate (List.mem_of_getElem? hi)
    subst this
    cases hp
  · intro i n hi
    have := List.eq_of_mem_replicate (List.mem_of_getElem? hi)
    cases this

/-- The top-ups that keep each other out are those that clash in the sense of C181. -/
theorem excludes_clash {a b : Call} (ha : IsTopup a) (hb : IsTopup b) : excludes a b = true ↔ PayLocks.Clash a b := by
  rcases ha with rfl | ⟨r, rfl⟩ <;> rcases hb with rfl | ⟨r', rfl⟩ <;>
    simp [excludes, PayLocks.Clash, PayLocks.Call.pays, PayLocks.Call.opens, PayLocks.Call.channel]

/-- **C182 (partial).** However top-ups overlap, each hands over a message that the chain can execute beside the others', as long as
of any two of them one is to a recipient without channel or both are to the same recipient.
Missing: two recipients that both have a channel (`C182_two_known_refuted`). -/
theorem C182_numbers_differ_partial (calls : List Call)
    (h : ∀ a ∈ calls, ∀ b ∈ calls, IsTopup a ∧ ∀ r r', a = .topupKnown r → b = .topupKnown r' → r = r')
    (next : Nat) (sched : List Nat) (s : St) (hr : run calls (begin_ calls next) sched = some s) : AllCanCount s.pool := by
  refine ⟨fun m hm => hm, (inv_run (fun a ha b hb => ?_) (by simp [begin_]) (inv_begin calls next) hr).distinct⟩
  obtain ⟨h1, h2⟩ := h a ha b hb
  obtain ⟨h3, _⟩ := h b hb a ha
  rcases h1 with rfl | ⟨r, rfl⟩
  · rfl
  · rcases h3 with rfl | ⟨r', rfl⟩
    · rfl
    · have := h2 r r' rfl rfl
      subst this
      simp [excludes]

/-- A new recipient, and three top-ups of a known one: and the schedule that lets all of them finish. -/
def exCalls : List Call := [.topupKnown 4, .topupNew, .topupKnown 4, .topupKnown 4]

example : (∀ a ∈ exCalls, ∀ b ∈ exCalls, IsTopup a ∧ ∀ r r', a = .topupKnown r → b = .topupKnown r' → r = r') ∧
    (run exCalls (begin_ exCalls 9) [2, 2, 2, 2, 1, 1, 1, 1, 0, 0, 0, 0, 3, 3, 3, 3]).map St.pool = some [(9, 2), (10, 1), (11, 0), (12, 3)] := by
  refine ⟨fun a ha b hb => ?_, by decide⟩
  simp [exCalls] at ha hb
  rcases ha with rfl | rfl | rfl <;> rcases hb with rfl | rfl | rfl <;> simp [IsTopup]

/-- **C182 (refuted).** Two recipients that both have a channel: the two top-ups can be told the same number; both hand over a message,
and whatever the chain makes of them, one of the two is not executed. -/
theorem C182_two_known_refuted (r r' : Nat) (h : r ≠ r') (next : Nat) :
    ∃ s, run [.topupKnown r, .topupKnown r'] (begin_ [.topupKnown r, .topupKnown r'] next) [0, 1, 0, 1, 0, 1] = some s ∧
      s.pcs = [.sent next, .sent next] ∧ OneIsLost s.pool 0 1 := by
  refine ⟨⟨max (max next (next + 1)) (next + 1), [(next, 0), (next, 1)], [.sent next, .sent next]⟩, ?_, rfl, ?_⟩
  · simp [run, step, begin_, List.range_succ, List.replicate, Pc.locked, excludes, h, Ne.symm h]
  · intro ex hex m hm m' hm' h0 h1
    obtain ⟨h2, h3⟩ := hex
    have e1 := h2 m hm
    have e2 := h2 m' hm'
    simp at e1 e2
    rcases e1 with rfl | rfl
    · rcases e2 with rfl | rfl
      · simp at h1
      · rcases List.mem_iff_getElem.1 hm with ⟨a, ha, ea⟩
        rcases List.mem_iff_getElem.1 hm' with ⟨b, hb, eb⟩
        rw [List.pairwise_iff_getElem] at h3
        rcases Nat.lt_trichotomy a b with hab | hab | hab
        · exact h3 a b ha hb hab (by rw [ea, eb])
        · subst hab; rw [ea] at eb; cases eb
        · exact h3 b a hb ha hab (by rw [ea, eb])
    · simp at h0

end FcRetrieval.PayNonce
