import Verif.Spec.JsPayment
import Verif.Lemmas.Maps
/-!
# Lemmas about the payment manager of the JavaScript client
-/

set_option linter.unusedSimpArgs false

namespace FcRetrieval.JsPay

/-! ## Lists -/

theorem split_at {l : List Task} {i : Nat} {t : Task} (h : l[i]? = some t) :
    ∃ a b, l = a ++ t :: b ∧ (∀ t', l.set i t' = a ++ t' :: b) ∧ l.eraseIdx i = a ++ b := by
  induction l generalizing i with
  | nil => simp at h
  | cons x l ih =>
    cases i with
    | zero =>
      simp only [List.getElem?_cons_zero, Option.some.injEq] at h
      subst h
      exact ⟨[], l, rfl, fun t' => by simp, by simp⟩
    | succ i =>
      simp only [List.getElem?_cons_succ] at h
      obtain ⟨a, b, h1, h2, h3⟩ := ih h
      exact ⟨x :: a, b, by simp [h1], fun t' => by simp [h2], by simp [h3]⟩

theorem erase_mem {l : List Task} {i : Nat} {t : Task} (h : t ∈ l.eraseIdx i) : t ∈ l := List.mem_of_mem_eraseIdx h

theorem foldl_max (l : List Nat) (a x : Nat) : (l ++ [x]).foldl max a = max (l.foldl max a) x := by
  simp [List.foldl_append]

theorem onLane_append (l : List Voucher) (v : Voucher) (ad : List Char) (lane : Nat) :
    onLane (l ++ [v]) ad lane = onLane l ad lane ++ if v.addr = ad ∧ v.lane = lane then [v] else [] := by
  unfold onLane
  rw [List.filter_append]
  by_cases h : v.addr = ad ∧ v.lane = lane
  · simp [h]
  · simp [h]

theorem best_append (l : List Voucher) (v : Voucher) (ad : List Char) (lane : Nat) :
    best (l ++ [v]) ad lane = if v.addr = ad ∧ v.lane = lane then max (best l ad lane) v.amount else best l ad lane := by
  unfold best
  rw [onLane_append]
  by_cases h : v.addr = ad ∧ v.lane = lane
  · rw [if_pos h, if_pos h]; simp
  · rw [if_neg h, if_neg h]; simp

theorem owed_other (l : List Voucher) (v : Voucher) (ad : List Char) (h : v.addr ≠ ad) (lanes : List Nat) : owed (l ++ [v]) ad lanes = owed l ad lanes := by
  unfold owed
  congr 1
  apply List.map_congr_left
  intro x _
  rw [best_append, if_neg fun hh => h hh.1]

theorem owed_one (l : List Voucher) (v : Voucher) (a : Nat) (h : v.amount = best l v.addr v.lane + a) (lanes : List Nat) (hn : lanes.Nodup) :
    owed (l ++ [v]) v.addr lanes = owed l v.addr lanes + if v.lane ∈ lanes then a else 0 := by
  induction lanes with
  | nil => simp [owed]
  | cons x lanes ih =>
    have hn' := List.nodup_cons.1 hn
    have ih := ih hn'.2
    unfold owed at ih ⊢
    simp only [List.map_cons, List.sum_cons, List.mem_cons]
    rw [ih, best_append]
    by_cases hx : v.lane = x
    · have : ¬ v.lane ∈ lanes := by rw [hx]; exact hn'.1
      rw [if_pos ⟨rfl, hx⟩, if_neg this, if_pos (Or.inl hx)]
      subst hx
      omega
    · rw [if_neg fun hh => hx hh.2]
      by_cases hm : v.lane ∈ lanes
      · rw [if_pos hm, if_pos (Or.inr hm)]; omega
      · rw [if_neg hm, if_neg (by simp [hx, hm])]; omega

/-! ## What holds whatever happens -/

/-- What the records about a channel have to do with the vouchers given out. -/
structure Booked (issued : List Voucher) (cs : Chan) : Prop where
  known : ∀ lane ls, mget cs.lanes lane = some ls → ls.nonce = (onLane issued cs.addr lane).length ∧ ls.redeemed = best issued cs.addr lane
  fresh : ∀ lane, mget cs.lanes lane = none → onLane issued cs.addr lane = []
  total : ∀ lanes : List Nat, lanes.Nodup → owed issued cs.addr lanes ≤ cs.redeemed
  exact : ∀ lanes : List Nat, lanes.Nodup → (∀ v ∈ issued, v.addr = cs.addr → v.lane ∈ lanes) → owed issued cs.addr lanes = cs.redeemed
  within : cs.redeemed ≤ cs.balance

def made : Task → Option (List Char)
  | .created _ _ ad => some ad
  | _ => none

structure Inv (w : World) : Prop where
  booked : ∀ r cs, mget w.mgr r = some cs → Booked w.issued cs
  real : ∀ r cs, mget w.mgr r = some cs → (mget w.chain cs.addr).isSome
  apart : ∀ r r' cs cs', mget w.mgr r = some cs → mget w.mgr r' = some cs' → cs.addr = cs'.addr → r = r'
  pend : ∀ r a ad, .created r a ad ∈ w.tasks → (mget w.chain ad).isSome ∧ (∀ v ∈ w.issued, v.addr ≠ ad) ∧ ∀ r' cs, mget w.mgr r' = some cs → cs.addr ≠ ad
  once : (w.tasks.filterMap made).Nodup
  onChain : ∀ v ∈ w.issued, (mget w.chain v.addr).isSome

theorem Inv.init (n : Nat) : Inv (newWorld n) := by
  constructor <;> simp [newWorld, mget]

theorem deposit_isSome (c : List (List Char × Nat)) (ad : List Char) (a : Nat) {x : List Char} (h : (mget c x).isSome) : (mget (deposit c ad a) x).isSome := by
  unfold deposit
  rw [mget_mset]
  split
  · rfl
  · exact h

theorem deposit_same (c : List (List Char × Nat)) (ad : List Char) (a : Nat) : mget (deposit c ad a) ad = some ((mget c ad).getD 0 + a) := by
  unfold deposit
  rw [mget_mset_same]

theorem deposit_other (c : List (List Char × Nat)) {ad x : List Char} (a : Nat) (h : ad ≠ x) : mget (deposit c ad a) x = mget c x := by
  unfold deposit
  rw [mget_mset_other _ _ h]

/-- What a payment does to the records. -/
theorem pay_cases (sign : Voucher → Option (List Char)) (m : Mgr) (r : List Char) (lane amount : Nat) :
    (pay sign m r lane amount = (m, .topup) ∧ (∀ cs, mget m r = some cs → cs.balance < cs.redeemed + amount)) ∨
    ∃ cs, mget m r = some cs ∧ cs.redeemed + amount ≤ cs.balance ∧
      let ls := (mget cs.lanes lane).getD ⟨0, 0, []⟩
      let v : Voucher := ⟨cs.addr, ls.redeemed + amount, lane, ls.nonce⟩
      (sign v = none ∧ pay sign m r lane amount = (mset m r { cs with lanes := mset cs.lanes lane ls }, .failed)) ∨
      ∃ text, sign v = some text ∧ pay sign m r lane amount =
        (mset m r { cs with lanes := mset cs.lanes lane ⟨ls.nonce + 1, ls.redeemed + amount, ls.vouchers ++ [urlSafe text]⟩, redeemed := cs.redeemed + amount },
          .paid cs.addr (urlSafe text) v) := by
  unfold pay
  cases h : mget m r with
  | none => left; simp
  | some cs =>
    dsimp only
    by_cases hb : cs.balance < cs.redeemed + amount
    · left; rw [if_pos hb]; exact ⟨rfl, fun cs' h' => by cases h'; exact hb⟩
    · right
      rw [if_neg hb]
      refine ⟨cs, rfl, by omega, ?_⟩
      cases hs : sign ⟨cs.addr, ((mget cs.lanes lane).getD ⟨0, 0, []⟩).redeemed + amount, lane, ((mget cs.lanes lane).getD ⟨0, 0, []⟩).nonce⟩ with
      | none => left; exact ⟨rfl, rfl⟩
      | some text => right; exact ⟨text, rfl, rfl⟩

/-- A lane as the records have it, or a new one. -/
theorem Booked.lane {l : List Voucher} {cs : Chan} (h : Booked l cs) (lane : Nat) :
    ((mget cs.lanes lane).getD ⟨0, 0, []⟩).nonce = (onLane l cs.addr lane).length ∧
    ((mget cs.lanes lane).getD ⟨0, 0, []⟩).redeemed = best l cs.addr lane := by
  cases hm : mget cs.lanes lane with
  | none => simp [best, h.fresh lane hm]
  | some ls => exact h.known lane ls hm

theorem Booked.congr {l l' : List Voucher} {cs : Chan} (h : Booked l cs) (ho : ∀ lane, onLane l' cs.addr lane = onLane l cs.addr lane) : Booked l' cs := by
  have hb : ∀ lane, best l' cs.addr lane = best l cs.addr lane := fun lane => by unfold best; rw [ho]
  have hw : ∀ lanes, owed l' cs.addr lanes = owed l cs.addr lanes := fun lanes => by
    unfold owed; congr 1; apply List.map_congr_left; intro x _; exact hb x
  refine ⟨fun lane ls hm => ?_, fun lane hm => ?_, fun lanes hn => ?_, fun lanes hn hc => ?_, h.within⟩
  · rw [ho, hb]; exact h.known lane ls hm
  · rw [ho]; exact h.fresh lane hm
  · rw [hw]; exact h.total lanes hn
  · rw [hw]
    refine h.exact lanes hn fun v hv ha => hc v ?_ ha
    have : v ∈ onLane l cs.addr v.lane := by unfold onLane; simp [hv, ha]
    rw [← ho] at this
    exact (List.mem_filter.1 this).1

theorem Booked.failed {l : List Voucher} {cs : Chan} (h : Booked l cs) (lane : Nat) :
    Booked l { cs with lanes := mset cs.lanes lane ((mget cs.lanes lane).getD ⟨0, 0, []⟩) } := by
  refine ⟨fun lane' ls hm => ?_, fun lane' hm => ?_, h.total, h.exact, h.within⟩
  · dsimp only at hm ⊢
    rw [mget_mset] at hm
    split at hm
    · rename_i he
      subst he
      cases hm
      exact h.lane lane
    · exact h.known lane' ls hm
  · dsimp only at hm ⊢
    rw [mget_mset] at hm
    split at hm
    · cases hm
    · exact h.fresh lane' hm

theorem Booked.paid {l : List Voucher} {cs : Chan} (h : Booked l cs) (lane amount : Nat) (hw : cs.redeemed + amount ≤ cs.balance) (vs : List (List Char)) :
    Booked (l ++ [⟨cs.addr, ((mget cs.lanes lane).getD ⟨0, 0, []⟩).redeemed + amount, lane, ((mget cs.lanes lane).getD ⟨0, 0, []⟩).nonce⟩])
      { cs with
        lanes := mset cs.lanes lane ⟨((mget cs.lanes lane).getD ⟨0, 0, []⟩).nonce + 1, ((mget cs.lanes lane).getD ⟨0, 0, []⟩).redeemed + amount, vs⟩
        redeemed := cs.redeemed + amount } := by
  obtain ⟨h1, h2⟩ := h.lane lane
  rw [h1, h2]
  refine ⟨fun lane' ls hm => ?_, fun lane' hm => ?_, fun lanes hn => ?_, fun lanes hn hc => ?_, hw⟩
  · dsimp only at hm ⊢
    rw [mget_mset] at hm
    rw [onLane_append, best_append]
    dsimp only
    split at hm
    · rename_i he
      subst he
      cases hm
      rw [if_pos ⟨rfl, rfl⟩, if_pos ⟨rfl, rfl⟩]
      constructor
      · simp
      · show best l cs.addr lane + amount = max (best l cs.addr lane) (best l cs.addr lane + amount); omega
    · rename_i he
      rw [if_neg fun hh => he hh.2, if_neg fun hh => he hh.2]
      simpa using h.known lane' ls hm
  · dsimp only at hm ⊢
    rw [mget_mset] at hm
    split at hm
    · cases hm
    · rename_i he
      rw [onLane_append, if_neg fun hh => he hh.2]
      simpa using h.fresh lane' hm
  · dsimp only
    have := owed_one l ⟨cs.addr, best l cs.addr lane + amount, lane, (onLane l cs.addr lane).length⟩ amount rfl lanes hn
    dsimp only at this
    rw [this]
    have ht := h.total lanes hn
    split <;> omega
  · dsimp only at hc ⊢
    have := owed_one l ⟨cs.addr, best l cs.addr lane + amount, lane, (onLane l cs.addr lane).length⟩ amount rfl lanes hn
    dsimp only at this
    rw [this, if_pos (hc _ (List.mem_append_right _ (List.mem_singleton.2 rfl)) rfl), h.exact lanes hn fun v hv ha => hc v (List.mem_append_left _ hv) ha]

theorem Booked.start {l : List Voucher} (ad : List Char) (a : Nat) (h : ∀ v ∈ l, v.addr ≠ ad) : Booked l ⟨ad, a, 0, []⟩ := by
  have ho : ∀ lane, onLane l ad lane = [] := by
    intro lane
    unfold onLane
    rw [List.filter_eq_nil_iff]
    intro v hv
    simp [h v hv]
  suffices h0 : ∀ lanes, owed l ad lanes = 0 by
    exact ⟨fun lane ls hm => by simp [mget] at hm, fun lane _ => ho lane, fun lanes _ => by rw [h0]; exact Nat.zero_le _, fun lanes _ _ => h0 lanes, Nat.zero_le _⟩
  intro lanes
  unfold owed
  have : lanes.map (best l ad) = lanes.map fun _ => 0 := List.map_congr_left fun x _ => by simp [best, ho]
  rw [this]
  have h0 : ∀ l : List Nat, (l.map fun _ => 0).sum = 0 := fun l => by induction l with
    | nil => rfl
    | cons _ l ih => simp [ih]
  rw [h0]

theorem Booked.more {l : List Voucher} {cs : Chan} (h : Booked l cs) (a : Nat) : Booked l { cs with balance := cs.balance + a } :=
  ⟨h.known, h.fresh, h.total, h.exact, Nat.le_trans h.within (Nat.le_add_right _ _)⟩

/-- The records change for one recipient, whose channel stays the same. -/
theorem Inv.book {w : World} (h : Inv w) {r : List Char} {cs cs' : Chan} (hg : mget w.mgr r = some cs) (l : List Voucher)
    (hb : Booked (w.issued ++ l) cs') (ha : cs'.addr = cs.addr) (hl : ∀ v ∈ l, v.addr = cs.addr) :
    Inv { w with mgr := mset w.mgr r cs', issued := w.issued ++ l } := by
  have hget : ∀ r' cs1, mget (mset w.mgr r cs') r' = some cs1 → (r = r' ∧ cs1 = cs') ∨ (r ≠ r' ∧ mget w.mgr r' = some cs1) := by
    intro r' cs1 hm
    rw [mget_mset] at hm
    split at hm
    · rename_i he; cases hm; exact Or.inl ⟨he, rfl⟩
    · rename_i he; exact Or.inr ⟨he, hm⟩
  constructor
  · intro r' cs1 hm
    rcases hget r' cs1 hm with ⟨_, rfl⟩ | ⟨hne, hm'⟩
    · exact hb
    · refine (h.booked r' cs1 hm').congr fun lane => ?_
      unfold onLane
      dsimp only
      rw [List.filter_append]
      have : l.filter (fun v => v.addr = cs1.addr ∧ v.lane = lane) = [] := by
        rw [List.filter_eq_nil_iff]
        intro v hv
        have : v.addr ≠ cs1.addr := by
          rw [hl v hv]
          intro he
          exact hne (h.apart r r' cs cs1 hg hm' he)
        simp [this]
      rw [this, List.append_nil]
  · intro r' cs1 hm
    rcases hget r' cs1 hm with ⟨_, rfl⟩ | ⟨_, hm'⟩
    · dsimp only; rw [ha]; exact h.real r cs hg
    · exact h.real r' cs1 hm'
  · intro r1 r2 c1 c2 h1 h2 he
    rcases hget r1 c1 h1 with ⟨rfl, rfl⟩ | ⟨_, h1'⟩ <;> rcases hget r2 c2 h2 with ⟨rfl, rfl⟩ | ⟨_, h2'⟩
    · rfl
    · rw [ha] at he; exact h.apart _ _ _ _ hg h2' he
    · rw [ha] at he; exact h.apart _ _ _ _ h1' hg he
    · exact h.apart _ _ _ _ h1' h2' he
  · intro r' a ad ht
    obtain ⟨p1, p2, p3⟩ := h.pend r' a ad ht
    refine ⟨p1, fun v hv => ?_, fun r2 c2 h2 => ?_⟩
    · rcases List.mem_append.1 hv with hv | hv
      · exact p2 v hv
      · rw [hl v hv]; exact p3 r cs hg
    · rcases hget r2 c2 h2 with ⟨_, rfl⟩ | ⟨_, h2'⟩
      · rw [ha]; exact p3 r cs hg
      · exact p3 r2 c2 h2'
  · exact h.once
  · intro v hv
    rcases List.mem_append.1 hv with hv | hv
    · exact h.onChain v hv
    · dsimp only; rw [hl v hv]; exact h.real r cs hg

/-- Only the list of top-ups, and the chain by more deposits, change. -/
theorem Inv.tasks {w : World} (h : Inv w) (ts : List Task) (c : List (List Char × Nat)) (n : Nat)
    (hc : ∀ x, (mget w.chain x).isSome → (mget c x).isSome)
    (hp : ∀ r a ad, .created r a ad ∈ ts → .created r a ad ∈ w.tasks ∨ (mget w.chain ad = none ∧ (mget c ad).isSome))
    (ho : (ts.filterMap made).Nodup) : Inv { w with tasks := ts, chain := c, nonce := n } := by
  constructor
  · exact h.booked
  · exact fun r cs hm => hc _ (h.real r cs hm)
  · exact h.apart
  · intro r a ad ht
    rcases hp r a ad ht with ht | ⟨h1, h2⟩
    · obtain ⟨p1, p2, p3⟩ := h.pend r a ad ht
      exact ⟨hc _ p1, p2, p3⟩
    · refine ⟨h2, fun v hv he => ?_, fun r' cs hm he => ?_⟩
      · have := h.onChain v hv; rw [he, h1] at this; simp at this
      · have := h.real r' cs hm; rw [he, h1] at this; simp at this
  · exact ho
  · exact fun v hv => hc _ (h.onChain v hv)

theorem Inv.erase {w : World} (h : Inv w) (i : Nat) : Inv { w with tasks := w.tasks.eraseIdx i } :=
  h.tasks _ w.chain w.nonce (fun _ hx => hx) (fun _ _ _ ht => Or.inl (erase_mem ht))
    (h.once.sublist ((List.eraseIdx_sublist _ _).filterMap _))

theorem start_made (m : Mgr) (r : List Char) (a : Nat) : made (start m r a) = none := by
  unfold start; split <;> rfl

theorem Inv.replace {w : World} (h : Inv w) {i : Nat} {t : Task} (hi : w.tasks[i]? = some t) (t' : Task) (ht : made t = none) (ht' : made t' = none)
    (c : List (List Char × Nat)) (n : Nat) (hc : ∀ x, (mget w.chain x).isSome → (mget c x).isSome) :
    Inv { w with tasks := w.tasks.set i t', chain := c, nonce := n } := by
  obtain ⟨a, b, h1, h2, h3⟩ := split_at hi
  refine h.tasks _ c n hc (fun r x ad hm => Or.inl ?_) ?_
  · rw [h2] at hm
    rw [h1]
    simp only [List.mem_append, List.mem_cons] at hm ⊢
    rcases hm with hm | hm | hm
    · exact Or.inl hm
    · rw [← hm] at ht'; cases ht'
    · exact Or.inr (Or.inr hm)
  · rw [h2]
    have := h.once
    rw [h1] at this
    simpa [List.filterMap_append, List.filterMap_cons, ht, ht'] using this

theorem Inv.step (sign : Voucher → Option (List Char)) {w : World} (h : Inv w) (e : Event) : Inv (step sign w e) := by
  cases e with
  | pay r lane amount =>
    unfold JsPay.step
    rcases pay_cases sign w.mgr r lane amount with ⟨hp, _⟩ | ⟨cs, hg, hw, ⟨_, hp⟩ | ⟨text, _, hp⟩⟩
    · simp only [hp]; exact h
    · simp only [hp]
      have hb := (h.booked r cs hg).failed lane
      rw [← List.append_nil w.issued] at hb
      have := h.book hg [] hb rfl (by simp)
      simpa using this
    · simp only [hp]
      exact h.book hg _ ((h.booked r cs hg).paid lane amount hw _) rfl (by simp)
  | topup r a =>
    unfold JsPay.step
    refine h.tasks _ w.chain w.nonce (fun _ hx => hx) (fun r' x ad ht => Or.inl ?_) ?_
    · simp only [List.mem_append, List.mem_singleton] at ht
      rcases ht with ht | ht
      · exact ht
      · have := start_made w.mgr r a; rw [← ht] at this; cases this
    · simpa [List.filterMap_append, start_made] using h.once
  | fail i => exact h.erase i
  | reject i =>
    rw [JsPay.step]
    cases hi : w.tasks[i]? with
    | none => exact h
    | some t =>
      cases t <;> dsimp only <;> try exact h
      · split
        · exact h.replace hi _ rfl rfl w.chain _ fun _ hx => hx
        · exact h
      · split
        · exact (h.erase i).tasks _ w.chain _ (fun _ hx => hx) (fun _ _ _ ht => Or.inl ht) (h.erase i).once
        · exact h
  | other => exact h.tasks w.tasks w.chain _ (fun _ hx => hx) (fun _ _ _ ht => Or.inl ht) h.once
  | go i addr =>
    rw [JsPay.step]
    cases hi : w.tasks[i]? with
    | none => exact h
    | some t =>
      cases t with
      | update r a =>
        dsimp only
        cases mget w.mgr r with
        | none => exact h.erase i
        | some cs => exact h.replace hi _ rfl rfl w.chain w.nonce fun _ hx => hx
      | updateTo r a ad n =>
        dsimp only
        split
        · exact h.replace hi _ rfl rfl _ _ fun _ hx => deposit_isSome _ _ _ hx
        · exact h.erase i
      | updated r a ad =>
        dsimp only
        cases hg : mget w.mgr r with
        | none => exact h.erase i
        | some cs =>
          have hb := (h.booked r cs hg).more a
          rw [← List.append_nil w.issued] at hb
          have := (h.erase i).book hg [] hb rfl (by simp)
          simpa using this
      | create r a =>
        dsimp only
        split
        · exact h.erase i
        · exact h.replace hi _ rfl rfl w.chain w.nonce fun _ hx => hx
      | creating r a n =>
        dsimp only
        split
        · exact h
        · rename_i hf
          split
          · obtain ⟨x, y, h1, h2, h3⟩ := split_at hi
            refine h.tasks _ _ _ (fun _ hx => deposit_isSome _ _ _ hx) (fun r' b ad hm => ?_) ?_
            · rw [h2] at hm
              rw [h1]
              simp only [List.mem_append, List.mem_cons] at hm ⊢
              rcases hm with hm | hm | hm
              · exact Or.inl (Or.inl hm)
              · cases hm
                refine Or.inr ⟨by simpa using hf, by rw [deposit_same]; rfl⟩
              · exact Or.inl (Or.inr (Or.inr hm))
            · have hn := h.once
              have hx : addr ∉ w.tasks.filterMap made := by
                intro hm
                rw [List.mem_filterMap] at hm
                obtain ⟨t, ht, hmd⟩ := hm
                cases t <;> simp only [made, Option.some.injEq, reduceCtorEq] at hmd
                subst hmd
                exact hf (h.pend _ _ _ ht).1
              rw [h1] at hn hx
              rw [h2]
              simp only [List.filterMap_append, List.filterMap_cons, made, List.mem_append] at hn hx ⊢
              rw [List.nodup_append] at hn ⊢
              refine ⟨hn.1, List.nodup_cons.2 ⟨fun hh => hx (Or.inr hh), hn.2.1⟩, ?_⟩
              intro p hp q hq
              rcases List.mem_cons.1 hq with rfl | hq
              · intro he; subst he; exact hx (Or.inl hp)
              · exact hn.2.2 p hp q hq
          · exact h.erase i
      | created r a ad =>
        dsimp only
        obtain ⟨p1, p2, p3⟩ := h.pend r a ad (List.mem_of_getElem? hi)
        have he := h.erase i
        have hget : ∀ r' cs1, mget (mset w.mgr r ⟨ad, a, 0, []⟩) r' = some cs1 → (r = r' ∧ cs1 = ⟨ad, a, 0, []⟩) ∨ (r ≠ r' ∧ mget w.mgr r' = some cs1) := by
          intro r' cs1 hm
          rw [mget_mset] at hm
          split at hm
          · rename_i he; cases hm; exact Or.inl ⟨he, rfl⟩
          · rename_i he; exact Or.inr ⟨he, hm⟩
        have hne : ∀ r' a', .created r' a' ad ∉ w.tasks.eraseIdx i := by
          intro r' a' hm
          obtain ⟨x, y, h1, h2, h3⟩ := split_at hi
          rw [h3] at hm
          have hn := h.once
          rw [h1] at hn
          simp only [List.filterMap_append, List.filterMap_cons, made] at hn
          rw [List.nodup_append, List.nodup_cons] at hn
          rcases List.mem_append.1 hm with hm | hm
          · exact hn.2.2 ad (List.mem_filterMap.2 ⟨_, hm, rfl⟩) ad (by simp) rfl
          · exact hn.2.1.1 (List.mem_filterMap.2 ⟨_, hm, rfl⟩)
        constructor
        · intro r' cs1 hm
          rcases hget r' cs1 hm with ⟨_, rfl⟩ | ⟨_, hm'⟩
          · exact Booked.start ad a p2
          · exact h.booked r' cs1 hm'
        · intro r' cs1 hm
          rcases hget r' cs1 hm with ⟨_, rfl⟩ | ⟨_, hm'⟩
          · exact p1
          · exact h.real r' cs1 hm'
        · intro r1 r2 c1 c2 h1 h2 heq
          rcases hget r1 c1 h1 with ⟨rfl, rfl⟩ | ⟨_, h1'⟩ <;> rcases hget r2 c2 h2 with ⟨rfl, rfl⟩ | ⟨_, h2'⟩
          · rfl
          · exact absurd heq.symm (p3 _ _ h2')
          · exact absurd heq (p3 _ _ h1')
          · exact h.apart _ _ _ _ h1' h2' heq
        · intro r' a' ad' ht
          obtain ⟨q1, q2, q3⟩ := he.pend r' a' ad' ht
          refine ⟨q1, q2, fun r2 c2 h2 => ?_⟩
          rcases hget r2 c2 h2 with ⟨_, rfl⟩ | ⟨_, h2'⟩
          · intro heq; dsimp only at heq; subst heq; exact hne _ _ ht
          · exact q3 r2 c2 h2'
        · exact he.once
        · exact h.onChain

theorem Inv.run (sign : Voucher → Option (List Char)) {w : World} (h : Inv w) (es : List Event) : Inv (run sign w es) := by
  induction es generalizing w with
  | nil => exact h
  | cons e es ih => exact ih (h.step sign e)

/-! ## What holds when top-ups for a recipient do not overlap -/

/-- What the records of a channel and a top-up under way have to do with what is on the chain. -/
structure Fund (R : Nat → Nat → Prop) (w : World) : Prop where
  one : (w.tasks.map Task.recipient).Nodup
  idle : ∀ r cs, mget w.mgr r = some cs → (∀ a ad, .updated r a ad ∉ w.tasks) → R cs.balance ((mget w.chain cs.addr).getD 0)
  update : ∀ r a, .update r a ∈ w.tasks → (mget w.mgr r).isSome
  updateTo : ∀ r a ad n, .updateTo r a ad n ∈ w.tasks → ∃ cs, mget w.mgr r = some cs ∧ cs.addr = ad
  updated : ∀ r a ad, .updated r a ad ∈ w.tasks → ∃ cs, mget w.mgr r = some cs ∧ cs.addr = ad ∧ R (cs.balance + a) ((mget w.chain ad).getD 0)
  create : ∀ r a, .create r a ∈ w.tasks → mget w.mgr r = none
  creating : ∀ r a n, .creating r a n ∈ w.tasks → mget w.mgr r = none
  created : ∀ r a ad, .created r a ad ∈ w.tasks → mget w.mgr r = none ∧ R a ((mget w.chain ad).getD 0)

theorem Fund.init (R : Nat → Nat → Prop) (n : Nat) : Fund R (newWorld n) := by
  constructor <;> simp [newWorld, mget]

/-- The records change for one recipient, but neither what is recorded as its balance nor its channel. -/
theorem Fund.book {R : Nat → Nat → Prop} {w : World} (h : Fund R w) {r : List Char} {cs cs' : Chan} (hg : mget w.mgr r = some cs)
    (ha : cs'.addr = cs.addr) (hb : cs'.balance = cs.balance) (l : List Voucher) : Fund R { w with mgr := mset w.mgr r cs', issued := l } := by
  have hsome : ∀ r' c, mget w.mgr r' = some c → ∃ c', mget (mset w.mgr r cs') r' = some c' ∧ c'.addr = c.addr ∧ c'.balance = c.balance := by
    intro r' c hm
    rw [mget_mset]
    split
    · rename_i he; subst he; rw [hg] at hm; cases hm; exact ⟨_, rfl, ha, hb⟩
    · exact ⟨c, hm, rfl, rfl⟩
  have hnone : ∀ r', mget w.mgr r' = none → mget (mset w.mgr r cs') r' = none := by
    intro r' hm
    rw [mget_mset]
    split
    · rename_i he; subst he; rw [hg] at hm; cases hm
    · exact hm
  refine ⟨h.one, fun r' c hm ht => ?_, fun r' a ht => ?_, fun r' a ad n ht => ?_, fun r' a ad ht => ?_, fun r' a ht => hnone _ (h.create r' a ht),
    fun r' a n ht => hnone _ (h.creating r' a n ht), fun r' a ad ht => ⟨hnone _ (h.created r' a ad ht).1, (h.created r' a ad ht).2⟩⟩
  · dsimp only at hm
    rw [mget_mset] at hm
    split at hm
    · rename_i he; subst he; cases hm; rw [ha, hb]; exact h.idle _ _ hg ht
    · exact h.idle r' c hm ht
  · have := h.update r' a ht
    cases hc : mget w.mgr r' with
    | none => rw [hc] at this; cases this
    | some c => obtain ⟨c', h1, _⟩ := hsome r' c hc; dsimp only; rw [h1]; rfl
  · obtain ⟨c, h1, h2⟩ := h.updateTo r' a ad n ht
    obtain ⟨c', h3, h4, _⟩ := hsome r' c h1
    exact ⟨c', h3, h4.trans h2⟩
  · obtain ⟨c, h1, h2, h3⟩ := h.updated r' a ad ht
    obtain ⟨c', h4, h5, h6⟩ := hsome r' c h1
    exact ⟨c', h4, h5.trans h2, by rw [h6]; exact h3⟩

/-- Another task than the one at hand is for somebody else. -/
theorem Fund.others {R : Nat → Nat → Prop} {w : World} (h : Fund R w) {i : Nat} {t : Task} (hi : w.tasks[i]? = some t) {t' : Task} (ht : t' ∈ w.tasks.eraseIdx i) :
    t'.recipient ≠ t.recipient ∧ t' ∈ w.tasks := by
  refine ⟨?_, erase_mem ht⟩
  obtain ⟨a, b, h1, h2, h3⟩ := split_at hi
  rw [h3] at ht
  have hn := h.one
  rw [h1] at hn
  simp only [List.map_append, List.map_cons] at hn
  rw [List.nodup_append, List.nodup_cons] at hn
  rcases List.mem_append.1 ht with ht | ht
  · exact hn.2.2 _ (List.mem_map_of_mem ht) _ (by simp)
  · intro he; exact hn.2.1.1 (he ▸ List.mem_map_of_mem ht)

/-- A top-up ends before any money has moved. -/
theorem Fund.drop {R : Nat → Nat → Prop} {w : World} (h : Fund R w) {i : Nat} {t : Task} (hi : w.tasks[i]? = some t)
    (hu : (∀ r a ad, t ≠ .updated r a ad) ∨ ∀ b a d, R (b + a) d → R b d) :
    Fund R { w with tasks := w.tasks.eraseIdx i } := by
  have hm : ∀ {x}, x ∈ w.tasks.eraseIdx i → x ∈ w.tasks := erase_mem
  refine ⟨h.one.sublist ((List.eraseIdx_sublist _ _).map _), fun r cs hg ht => ?_, fun r a ht => h.update r a (hm ht), fun r a ad n ht => h.updateTo r a ad n (hm ht),
    fun r a ad ht => h.updated r a ad (hm ht), fun r a ht => h.create r a (hm ht), fun r a n ht => h.creating r a n (hm ht), fun r a ad ht => h.created r a ad (hm ht)⟩
  by_cases hx : ∃ a ad, .updated r a ad ∈ w.tasks
  · obtain ⟨a, ad, hx⟩ := hx
    have : t = .updated r a ad := by
      obtain ⟨p, q, h1, h2, h3⟩ := split_at hi
      have hni := ht a ad
      dsimp only at hni
      rw [h3] at hni
      rw [h1] at hx
      simp only [List.mem_append, List.mem_cons, not_or] at hx hni
      rcases hx with hx | hx | hx
      · exact absurd hx hni.1
      · exact hx.symm
      · exact absurd hx hni.2
    rcases hu with hu | hu
    · exact absurd this (hu _ _ _)
    · obtain ⟨c, h1, h2, h3⟩ := h.updated r a ad hx
      rw [hg] at h1
      cases h1
      rw [← h2] at h3
      exact hu _ _ _ h3
  · exact h.idle r cs hg fun a ad hh => hx ⟨a, ad, hh⟩

theorem mem_set {l : List Task} {i : Nat} {t t' x : Task} (hi : l[i]? = some t) (hx : x ∈ l.set i t') : x = t' ∨ x ∈ l.eraseIdx i := by
  obtain ⟨a, b, h1, h2, h3⟩ := split_at hi
  rw [h2] at hx
  rw [h3]
  simp only [List.mem_append, List.mem_cons] at hx ⊢
  rcases hx with hx | hx | hx
  · exact Or.inr (Or.inl hx)
  · exact Or.inl hx
  · exact Or.inr (Or.inr hx)

theorem one_set {l : List Task} {i : Nat} {t : Task} (hi : l[i]? = some t) (t' : Task) (hr : t'.recipient = t.recipient) (h : (l.map Task.recipient).Nodup) :
    ((l.set i t').map Task.recipient).Nodup := by
  obtain ⟨a, b, h1, h2, h3⟩ := split_at hi
  rw [h1] at h
  rw [h2]
  simpa [hr] using h

theorem not_updated {l : List Task} {i : Nat} {t t' : Task} (hi : l[i]? = some t) {r : List Char} (ht : ∀ a ad, t ≠ .updated r a ad)
    (h : ∀ a ad, .updated r a ad ∉ l.set i t') (a : Nat) (ad : List Char) : .updated r a ad ∉ l := by
  obtain ⟨p, q, h1, h2, h3⟩ := split_at hi
  have := h a ad
  rw [h2] at this
  rw [h1]
  simp only [List.mem_append, List.mem_cons, not_or] at this ⊢
  exact ⟨this.1, fun he => ht a ad he.symm, this.2.2⟩

theorem Fund.step (R : Nat → Nat → Prop) (hr : ∀ a, R a a) (hadd : ∀ b a d, R b d → R (b + a) (d + a))
    (sign : Voucher → Option (List Char)) {w : World} (hI : Inv w) (h : Fund R w) (e : Event)
    (hf : (∀ i, e ≠ .fail i) ∨ ∀ b a d, R (b + a) d → R b d) (hrej : ∀ i, e ≠ .reject i) (ho : ∀ r a, e = .topup r a → ∀ t ∈ w.tasks, t.recipient ≠ r) : Fund R (step sign w e) := by
  cases e with
  | reject i => exact absurd rfl (hrej i)
  | pay r lane amount =>
    unfold JsPay.step
    rcases pay_cases sign w.mgr r lane amount with ⟨hp, _⟩ | ⟨cs, hg, hw, ⟨_, hp⟩ | ⟨text, _, hp⟩⟩
    · simp only [hp]; exact h
    · simp only [hp]
      refine h.book hg ?_ ?_ _ <;> rfl
    · simp only [hp]
      refine h.book hg ?_ ?_ _ <;> rfl
  | topup r a =>
    have ho := ho r a rfl
    have hs : (start w.mgr r a).recipient = r := by unfold start; split <;> rfl
    have hm : ∀ {x}, x ∈ w.tasks ++ [start w.mgr r a] → x ∈ w.tasks ∨ x = start w.mgr r a := by
      intro x hx; simpa using hx
    rw [JsPay.step]
    refine ⟨?_, fun r' cs hg ht => h.idle r' cs hg fun a ad hh => ht a ad (List.mem_append_left _ hh), fun r' a' ht => ?_, fun r' a' ad n ht => ?_, fun r' a' ad ht => ?_,
      fun r' a' ht => ?_, fun r' a' n ht => ?_, fun r' a' ad ht => ?_⟩
    · simp only [List.map_append, List.map_cons, List.map_nil, hs]
      rw [List.nodup_append]
      refine ⟨h.one, by simp, fun x hx y hy => ?_⟩
      simp only [List.mem_singleton] at hy
      subst hy
      rw [List.mem_map] at hx
      obtain ⟨t, h1, rfl⟩ := hx
      exact ho t h1
    · rcases hm ht with ht | ht
      · exact h.update _ _ ht
      · unfold start at ht
        split at ht <;> cases ht
        assumption
    · rcases hm ht with ht | ht
      · exact h.updateTo _ _ _ _ ht
      · unfold start at ht; split at ht <;> cases ht
    · rcases hm ht with ht | ht
      · exact h.updated _ _ _ ht
      · unfold start at ht; split at ht <;> cases ht
    · rcases hm ht with ht | ht
      · exact h.create _ _ ht
      · unfold start at ht
        split at ht <;> cases ht
        rename_i hx; simpa using hx
    · rcases hm ht with ht | ht
      · exact h.creating _ _ _ ht
      · unfold start at ht; split at ht <;> cases ht
    · rcases hm ht with ht | ht
      · exact h.created _ _ _ ht
      · unfold start at ht; split at ht <;> cases ht
  | fail i =>
    rw [JsPay.step]
    cases hi : w.tasks[i]? with
    | none =>
      have : w.tasks.eraseIdx i = w.tasks := List.eraseIdx_of_length_le (by simpa using hi)
      rw [this]; exact h
    | some t =>
      refine h.drop hi ?_
      rcases hf with hf | hf
      · exact absurd rfl (hf i)
      · exact Or.inr hf
  | other => exact ⟨h.one, h.idle, h.update, h.updateTo, h.updated, h.create, h.creating, h.created⟩
  | go i addr =>
    rw [JsPay.step]
    cases hi : w.tasks[i]? with
    | none => exact h
    | some t =>
      have hmem := List.mem_of_getElem? hi
      cases t with
      | update r a =>
        dsimp only
        cases hg : mget w.mgr r with
        | none => exact h.drop hi (Or.inl (by simp))
        | some cs =>
          have hm : ∀ {x}, x ∈ w.tasks.set i (.updateTo r a cs.addr w.nonce) → x = .updateTo r a cs.addr w.nonce ∨ x ∈ w.tasks := fun hx => (mem_set hi hx).imp id erase_mem
          refine ⟨one_set hi _ rfl h.one, fun r' c hg' ht => h.idle r' c hg' (not_updated hi (by simp) ht), fun r' a' ht => ?_, fun r' a' ad n ht => ?_, fun r' a' ad ht => ?_,
            fun r' a' ht => ?_, fun r' a' n ht => ?_, fun r' a' ad ht => ?_⟩
          · rcases hm ht with ht | ht
            · cases ht
            · exact h.update _ _ ht
          · rcases hm ht with ht | ht
            · cases ht; exact ⟨cs, hg, rfl⟩
            · exact h.updateTo _ _ _ _ ht
          · rcases hm ht with ht | ht
            · cases ht
            · exact h.updated _ _ _ ht
          · rcases hm ht with ht | ht
            · cases ht
            · exact h.create _ _ ht
          · rcases hm ht with ht | ht
            · cases ht
            · exact h.creating _ _ _ ht
          · rcases hm ht with ht | ht
            · cases ht
            · exact h.created _ _ _ ht
      | updateTo r a ad n =>
        dsimp only
        split
        · obtain ⟨cs, hg, ha⟩ := h.updateTo r a ad n hmem
          have hm : ∀ {x}, x ∈ w.tasks.set i (.updated r a ad) → x = .updated r a ad ∨ (x.recipient ≠ r ∧ x ∈ w.tasks) := fun hx => (mem_set hi hx).imp id (h.others hi)
          have hself : ∀ b ad', .updated r b ad' ∉ w.tasks := by
            intro b ad' hh
            obtain ⟨p, q, h1, h2, h3⟩ := split_at hi
            have : (.updated r b ad' : Task) ∈ w.tasks.eraseIdx i := by
              rw [h1] at hh; rw [h3]
              simp only [List.mem_append, List.mem_cons, reduceCtorEq, false_or] at hh ⊢
              exact hh
            exact (h.others hi this).1 rfl
          refine ⟨one_set hi _ rfl h.one, fun r' c hg' ht => ?_, fun r' a' ht => ?_, fun r' a' ad' n' ht => ?_, fun r' a' ad' ht => ?_,
            fun r' a' ht => ?_, fun r' a' n' ht => ?_, fun r' a' ad' ht => ?_⟩
          · have hne : r ≠ r' := by
              intro he; subst he
              obtain ⟨p, q, h1, h2, h3⟩ := split_at hi
              refine ht a ad ?_
              dsimp only
              rw [h2]; simp
            have : ad ≠ c.addr := by
              intro he
              exact hne (hI.apart _ _ _ _ hg hg' (ha.trans he))
            dsimp only
            rw [deposit_other _ _ this]
            exact h.idle r' c hg' (not_updated hi (by simp) ht)
          · rcases hm ht with ht | ht
            · cases ht
            · exact h.update _ _ ht.2
          · rcases hm ht with ht | ht
            · cases ht
            · exact h.updateTo _ _ _ _ ht.2
          · rcases hm ht with ht | ht
            · cases ht
              refine ⟨cs, hg, ha, ?_⟩
              dsimp only
              rw [deposit_same]
              refine hadd _ _ _ ?_
              have := h.idle r cs hg hself
              rw [ha] at this
              exact this
            · obtain ⟨c, h1, h2, h3⟩ := h.updated _ _ _ ht.2
              refine ⟨c, h1, h2, ?_⟩
              have : ad ≠ ad' := by
                intro he
                exact ht.1 (hI.apart _ _ _ _ h1 hg (h2.trans (he.symm.trans ha.symm)))
              dsimp only
              rw [deposit_other _ _ this]
              exact h3
          · rcases hm ht with ht | ht
            · cases ht
            · exact h.create _ _ ht.2
          · rcases hm ht with ht | ht
            · cases ht
            · exact h.creating _ _ _ ht.2
          · rcases hm ht with ht | ht
            · cases ht
            · refine ⟨(h.created _ _ _ ht.2).1, ?_⟩
              have : ad ≠ ad' := fun he => (hI.pend _ _ _ ht.2).2.2 r cs hg (ha.trans he)
              dsimp only
              rw [deposit_other _ _ this]
              exact (h.created _ _ _ ht.2).2
        · exact h.drop hi (Or.inl (by simp))
      | updated r a ad =>
        dsimp only
        obtain ⟨cs, hg, ha, hR⟩ := h.updated r a ad hmem
        rw [hg]
        have hm : ∀ {x}, x ∈ w.tasks.eraseIdx i → x.recipient ≠ r ∧ x ∈ w.tasks := fun hx => h.others hi hx
        refine ⟨h.one.sublist ((List.eraseIdx_sublist _ _).map _), fun r' c hg' ht => ?_, fun r' a' ht => ?_, fun r' a' ad' n ht => ?_, fun r' a' ad' ht => ?_,
          fun r' a' ht => ?_, fun r' a' n ht => ?_, fun r' a' ad' ht => ?_⟩
        · dsimp only at hg' ⊢
          rw [mget_mset] at hg'
          split at hg'
          · cases hg'; rw [← ha] at hR; exact hR
          · rename_i hne
            refine h.idle r' c hg' fun b ad' hh => ht b ad' ?_
            obtain ⟨p, q, h1, h2, h3⟩ := split_at hi
            dsimp only
            rw [h3]
            rw [h1] at hh
            simp only [List.mem_append, List.mem_cons] at hh ⊢
            rcases hh with hh | hh | hh
            · exact Or.inl hh
            · cases hh; exact absurd rfl hne
            · exact Or.inr hh
        · have hh := hm ht
          dsimp only
          rw [mget_mset_other _ _ (show r ≠ r' from Ne.symm hh.1)]
          exact h.update _ _ hh.2
        · have hh := hm ht
          dsimp only
          rw [mget_mset_other _ _ (show r ≠ r' from Ne.symm hh.1)]
          exact h.updateTo _ _ _ _ hh.2
        · have hh := hm ht
          dsimp only
          rw [mget_mset_other _ _ (show r ≠ r' from Ne.symm hh.1)]
          exact h.updated _ _ _ hh.2
        · have hh := hm ht
          dsimp only
          rw [mget_mset_other _ _ (show r ≠ r' from Ne.symm hh.1)]
          exact h.create _ _ hh.2
        · have hh := hm ht
          dsimp only
          rw [mget_mset_other _ _ (show r ≠ r' from Ne.symm hh.1)]
          exact h.creating _ _ _ hh.2
        · have hh := hm ht
          dsimp only
          rw [mget_mset_other _ _ (show r ≠ r' from Ne.symm hh.1)]
          exact h.created _ _ _ hh.2
      | create r a =>
        dsimp only
        split
        · exact h.drop hi (Or.inl (by simp))
        · have hg := h.create r a hmem
          have hm : ∀ {x}, x ∈ w.tasks.set i (.creating r a w.nonce) → x = .creating r a w.nonce ∨ x ∈ w.tasks := fun hx => (mem_set hi hx).imp id erase_mem
          refine ⟨one_set hi _ rfl h.one, fun r' c hg' ht => h.idle r' c hg' (not_updated hi (by simp) ht), fun r' a' ht => ?_, fun r' a' ad n ht => ?_, fun r' a' ad ht => ?_,
            fun r' a' ht => ?_, fun r' a' n ht => ?_, fun r' a' ad ht => ?_⟩
          · rcases hm ht with ht | ht
            · cases ht
            · exact h.update _ _ ht
          · rcases hm ht with ht | ht
            · cases ht
            · exact h.updateTo _ _ _ _ ht
          · rcases hm ht with ht | ht
            · cases ht
            · exact h.updated _ _ _ ht
          · rcases hm ht with ht | ht
            · cases ht
            · exact h.create _ _ ht
          · rcases hm ht with ht | ht
            · cases ht; exact hg
            · exact h.creating _ _ _ ht
          · rcases hm ht with ht | ht
            · cases ht
            · exact h.created _ _ _ ht
      | creating r a n =>
        dsimp only
        split
        · exact h
        · rename_i hfree
          have hfree : mget w.chain addr = none := by simpa using hfree
          split
          · have hg := h.creating r a n hmem
            have hm : ∀ {x}, x ∈ w.tasks.set i (.created r a addr) → x = .created r a addr ∨ x ∈ w.tasks := fun hx => (mem_set hi hx).imp id erase_mem
            have hkeep : ∀ ad, (mget w.chain ad).isSome → mget (deposit w.chain addr a) ad = mget w.chain ad := by
              intro ad hs
              refine deposit_other _ _ ?_
              intro he; subst he; rw [hfree] at hs; cases hs
            refine ⟨one_set hi _ rfl h.one, fun r' c hg' ht => ?_, fun r' a' ht => ?_, fun r' a' ad n ht => ?_, fun r' a' ad ht => ?_,
              fun r' a' ht => ?_, fun r' a' n ht => ?_, fun r' a' ad ht => ?_⟩
            · dsimp only
              rw [hkeep _ (hI.real _ _ hg')]
              exact h.idle r' c hg' (not_updated hi (by simp) ht)
            · rcases hm ht with ht | ht
              · cases ht
              · exact h.update _ _ ht
            · rcases hm ht with ht | ht
              · cases ht
              · exact h.updateTo _ _ _ _ ht
            · rcases hm ht with ht | ht
              · cases ht
              · obtain ⟨c, h1, h2, h3⟩ := h.updated _ _ _ ht
                refine ⟨c, h1, h2, ?_⟩
                dsimp only
                rw [hkeep _ (h2 ▸ hI.real _ _ h1)]
                exact h3
            · rcases hm ht with ht | ht
              · cases ht
              · exact h.create _ _ ht
            · rcases hm ht with ht | ht
              · cases ht
              · exact h.creating _ _ _ ht
            · rcases hm ht with ht | ht
              · cases ht
                refine ⟨hg, ?_⟩
                dsimp only
                rw [deposit_same, hfree]
                show R a (0 + a)
                rw [Nat.zero_add]
                exact hr a
              · refine ⟨(h.created _ _ _ ht).1, ?_⟩
                dsimp only
                rw [hkeep _ (hI.pend _ _ _ ht).1]
                exact (h.created _ _ _ ht).2
          · exact h.drop hi (Or.inl (by simp))
      | created r a ad =>
        dsimp only
        obtain ⟨hg, hR⟩ := h.created r a ad hmem
        have hm : ∀ {x}, x ∈ w.tasks.eraseIdx i → x.recipient ≠ r ∧ x ∈ w.tasks := fun hx => h.others hi hx
        refine ⟨h.one.sublist ((List.eraseIdx_sublist _ _).map _), fun r' c hg' ht => ?_, fun r' a' ht => ?_, fun r' a' ad' n ht => ?_, fun r' a' ad' ht => ?_,
          fun r' a' ht => ?_, fun r' a' n ht => ?_, fun r' a' ad' ht => ?_⟩
        · dsimp only at hg' ⊢
          rw [mget_mset] at hg'
          split at hg'
          · cases hg'; exact hR
          · refine h.idle r' c hg' fun b ad' hh => ht b ad' ?_
            obtain ⟨p, q, h1, h2, h3⟩ := split_at hi
            dsimp only
            rw [h3]
            rw [h1] at hh
            simp only [List.mem_append, List.mem_cons, reduceCtorEq, false_or] at hh ⊢
            exact hh
        · have hh := hm ht
          dsimp only
          rw [mget_mset_other _ _ (show r ≠ r' from Ne.symm hh.1)]
          exact h.update _ _ hh.2
        · have hh := hm ht
          dsimp only
          rw [mget_mset_other _ _ (show r ≠ r' from Ne.symm hh.1)]
          exact h.updateTo _ _ _ _ hh.2
        · have hh := hm ht
          dsimp only
          rw [mget_mset_other _ _ (show r ≠ r' from Ne.symm hh.1)]
          exact h.updated _ _ _ hh.2
        · have hh := hm ht
          dsimp only
          rw [mget_mset_other _ _ (show r ≠ r' from Ne.symm hh.1)]
          exact h.create _ _ hh.2
        · have hh := hm ht
          dsimp only
          rw [mget_mset_other _ _ (show r ≠ r' from Ne.symm hh.1)]
          exact h.creating _ _ _ hh.2
        · have hh := hm ht
          dsimp only
          rw [mget_mset_other _ _ (show r ≠ r' from Ne.symm hh.1)]
          exact h.created _ _ _ hh.2

theorem Fund.run (R : Nat → Nat → Prop) (hr : ∀ a, R a a) (hadd : ∀ b a d, R b d → R (b + a) (d + a)) (sign : Voucher → Option (List Char)) {w : World}
    (hI : Inv w) (h : Fund R w) (es : List Event) (hf : Smooth es ∨ ∀ b a d, R (b + a) d → R b d) (hx : Executed es) (ho : Orderly sign w es) : Fund R (run sign w es) := by
  induction es generalizing w with
  | nil => exact h
  | cons e es ih =>
    refine ih (hI.step sign e) (h.step R hr hadd sign hI e ?_ (fun i he => hx i (by rw [← he]; simp)) ho.1) ?_ (fun i he => hx i (List.mem_cons_of_mem _ he)) ho.2
    · exact hf.imp (fun hf i he => hf i (by rw [← he]; simp)) id
    · exact hf.imp (fun hf i he => hf i (List.mem_cons_of_mem _ he)) id

/-- Every channel on the chain is somebody's, or is about to be. -/
def Kept (w : World) : Prop :=
  ∀ ad, (mget w.chain ad).isSome → (∃ r cs, mget w.mgr r = some cs ∧ cs.addr = ad) ∨ ∃ r a, .created r a ad ∈ w.tasks

theorem Kept.step (sign : Voucher → Option (List Char)) {w : World} (h : Kept w) (hF : Fund Eq w) (e : Event) (hf : ∀ i, e ≠ .fail i) (hx : ∀ i, e ≠ .reject i) : Kept (step sign w e) := by
  have hset : ∀ {i : Nat} {t : Task}, w.tasks[i]? = some t → made t = none → ∀ t' r a ad, .created r a ad ∈ w.tasks → .created r a ad ∈ w.tasks.set i t' := by
    intro i t hi hn t' r a ad hm
    obtain ⟨p, q, h1, h2, h3⟩ := split_at hi
    rw [h2]
    rw [h1] at hm
    simp only [List.mem_append, List.mem_cons] at hm ⊢
    rcases hm with hm | hm | hm
    · exact Or.inl hm
    · rw [← hm] at hn; cases hn
    · exact Or.inr (Or.inr hm)
  have herase : ∀ {i : Nat} {t : Task}, w.tasks[i]? = some t → ∀ r a ad, .created r a ad ∈ w.tasks → t ≠ .created r a ad → .created r a ad ∈ w.tasks.eraseIdx i := by
    intro i t hi r a ad hm hn
    obtain ⟨p, q, h1, h2, h3⟩ := split_at hi
    rw [h3]
    rw [h1] at hm
    simp only [List.mem_append, List.mem_cons] at hm ⊢
    rcases hm with hm | hm | hm
    · exact Or.inl hm
    · exact absurd hm.symm hn
    · exact Or.inr hm
  have hbook : ∀ {r : List Char} {cs cs' : Chan}, mget w.mgr r = some cs → cs'.addr = cs.addr → ∀ {r1 c1}, mget w.mgr r1 = some c1 →
      ∃ r2 c2, mget (mset w.mgr r cs') r2 = some c2 ∧ c2.addr = c1.addr := by
    intro r cs cs' hg ha r1 c1 h1
    by_cases he : r = r1
    · subst he
      rw [hg] at h1
      cases h1
      exact ⟨r, cs', mget_mset_same _ _ _, ha⟩
    · exact ⟨r1, c1, by rw [mget_mset_other _ _ he]; exact h1, rfl⟩
  have same : ∀ {i : Nat} {t : Task} (t' : Task) (n : Nat), w.tasks[i]? = some t → made t = none → Kept { w with tasks := w.tasks.set i t', nonce := n } := by
    intro i t t' n hi hn ad hs
    rcases h ad hs with h1 | ⟨r, a, h1⟩
    · exact Or.inl h1
    · exact Or.inr ⟨r, a, hset hi hn t' r a ad h1⟩
  have gone : ∀ {i : Nat} {t : Task}, w.tasks[i]? = some t → made t = none → Kept { w with tasks := w.tasks.eraseIdx i } := by
    intro i t hi hn ad hs
    rcases h ad hs with h1 | ⟨r, a, h1⟩
    · exact Or.inl h1
    · exact Or.inr ⟨r, a, herase hi r a ad h1 (by intro he; rw [he] at hn; cases hn)⟩
  cases e with
  | reject i => exact absurd rfl (hx i)
  | pay r lane amount =>
    unfold JsPay.step
    rcases pay_cases sign w.mgr r lane amount with ⟨hp, _⟩ | ⟨cs, hg, hw, ⟨_, hp⟩ | ⟨text, _, hp⟩⟩
    · simp only [hp]; exact h
    · simp only [hp]
      intro ad hs
      rcases h ad hs with ⟨r1, c1, h1, h2⟩ | h1
      · obtain ⟨r2, c2, h3, h4⟩ := hbook hg (cs' := { cs with lanes := mset cs.lanes lane ((mget cs.lanes lane).getD ⟨0, 0, []⟩) }) rfl h1
        exact Or.inl ⟨r2, c2, h3, h4.trans h2⟩
      · exact Or.inr h1
    · simp only [hp]
      intro ad hs
      rcases h ad hs with ⟨r1, c1, h1, h2⟩ | h1
      · left
        by_cases he : r = r1
        · subst he
          rw [hg] at h1
          cases h1
          exact ⟨r, _, mget_mset_same _ _ _, h2⟩
        · exact ⟨r1, c1, by dsimp only; rw [mget_mset_other _ _ he]; exact h1, h2⟩
      · exact Or.inr h1
  | topup r a =>
    intro ad hs
    rcases h ad hs with h1 | ⟨r, a, h1⟩
    · exact Or.inl h1
    · exact Or.inr ⟨r, a, List.mem_append_left _ h1⟩
  | fail i => exact absurd rfl (hf i)
  | other => exact h
  | go i addr =>
    rw [JsPay.step]
    cases hi : w.tasks[i]? with
    | none => exact h
    | some t =>
      have hmem := List.mem_of_getElem? hi
      cases t with
      | update r a =>
        dsimp only
        cases mget w.mgr r with
        | none => exact gone hi rfl
        | some cs => exact same _ _ hi rfl
      | updateTo r a ad n =>
        dsimp only
        obtain ⟨cs, hg, ha⟩ := hF.updateTo r a ad n hmem
        split
        · intro x hs
          by_cases he : ad = x
          · subst he; exact Or.inl ⟨r, cs, hg, ha⟩
          · dsimp only at hs
            rw [deposit_other _ _ he] at hs
            rcases h x hs with h1 | ⟨r1, a1, h1⟩
            · exact Or.inl h1
            · exact Or.inr ⟨r1, a1, hset hi rfl _ _ _ _ h1⟩
        · exact gone hi rfl
      | updated r a ad =>
        dsimp only
        obtain ⟨cs, hg, ha, _⟩ := hF.updated r a ad hmem
        rw [hg]
        intro x hs
        rcases h x hs with ⟨r1, c1, h1, h2⟩ | ⟨r1, a1, h1⟩
        · obtain ⟨r2, c2, h3, h4⟩ := hbook hg (cs' := { cs with balance := cs.balance + a }) rfl h1
          exact Or.inl ⟨r2, c2, h3, h4.trans h2⟩
        · exact Or.inr ⟨r1, a1, herase hi _ _ _ h1 (by simp)⟩
      | create r a =>
        dsimp only
        split
        · exact gone hi rfl
        · exact same _ _ hi rfl
      | creating r a n =>
        dsimp only
        split
        · exact h
        · split
          · intro x hs
            by_cases he : addr = x
            · subst he
              refine Or.inr ⟨r, a, ?_⟩
              obtain ⟨p, q, h1, h2, h3⟩ := split_at hi
              dsimp only
              rw [h2]; simp
            · dsimp only at hs
              rw [deposit_other _ _ he] at hs
              rcases h x hs with h1 | ⟨r1, a1, h1⟩
              · exact Or.inl h1
              · exact Or.inr ⟨r1, a1, hset hi rfl _ _ _ _ h1⟩
          · exact gone hi rfl
      | created r a ad =>
        dsimp only
        have hg := (hF.created r a ad hmem).1
        intro x hs
        rcases h x hs with ⟨r1, c1, h1, h2⟩ | ⟨r1, a1, h1⟩
        · refine Or.inl ⟨r1, c1, ?_, h2⟩
          dsimp only
          rw [mget_mset_other _ _ ?_]
          · exact h1
          · intro he; subst he; rw [hg] at h1; cases h1
        · by_cases he : Task.created r a ad = .created r1 a1 x
          · cases he
            exact Or.inl ⟨r, _, mget_mset_same _ _ _, rfl⟩
          · exact Or.inr ⟨r1, a1, herase hi _ _ _ h1 he⟩

theorem Kept.run (sign : Voucher → Option (List Char)) {w : World} (hI : Inv w) (hF : Fund Eq w) (h : Kept w) (es : List Event) (hf : Smooth es) (hx : Executed es) (ho : Orderly sign w es) :
    Kept (run sign w es) := by
  induction es generalizing w with
  | nil => exact h
  | cons e es ih =>
    have hf1 : ∀ i, e ≠ .fail i := fun i he => hf i (by rw [← he]; simp)
    have hx1 : ∀ i, e ≠ .reject i := fun i he => hx i (by rw [← he]; simp)
    exact ih (hI.step sign e) (hF.step Eq (fun _ => rfl) (fun _ _ _ he => by rw [he]) sign hI e (Or.inl hf1) hx1 ho.1) (h.step sign hF e hf1 hx1)
      (fun i he => hf i (List.mem_cons_of_mem _ he)) (fun i he => hx i (List.mem_cons_of_mem _ he)) ho.2

/-! ## A channel nobody has any more -/

/-- It exists, no voucher has been given out for it, and nobody has it or is about to. -/
structure Dead (ad : List Char) (w : World) : Prop where
  real : (mget w.chain ad).isSome
  none : ∀ v ∈ w.issued, v.addr ≠ ad
  nobody : ∀ r cs, mget w.mgr r = some cs → cs.addr ≠ ad
  never : ∀ r a, .created r a ad ∉ w.tasks

theorem Dead.tasks {ad : List Char} {w : World} (h : Dead ad w) (ts : List Task) (c : List (List Char × Nat)) (n : Nat)
    (hc : (mget c ad).isSome) (ht : ∀ r a, .created r a ad ∉ ts) : Dead ad { w with tasks := ts, chain := c, nonce := n } :=
  ⟨hc, h.none, h.nobody, ht⟩

theorem Dead.book {ad : List Char} {w : World} (h : Dead ad w) (r : List Char) (cs' : Chan) (hn : cs'.addr ≠ ad) (l : List Voucher) (hl : ∀ v ∈ l, v.addr ≠ ad) :
    Dead ad { w with mgr := mset w.mgr r cs', issued := l } := by
  refine ⟨h.real, hl, fun r' c hm => ?_, h.never⟩
  dsimp only at hm
  rw [mget_mset] at hm
  split at hm
  · cases hm; exact hn
  · exact h.nobody r' c hm

theorem Dead.step (sign : Voucher → Option (List Char)) {ad : List Char} {w : World} (h : Dead ad w) (e : Event) : Dead ad (step sign w e) := by
  have herase : ∀ i, Dead ad { w with tasks := w.tasks.eraseIdx i } := fun i => h.tasks _ _ _ h.real fun r a hm => h.never r a (erase_mem hm)
  have hset : ∀ {i : Nat} {t : Task} (t' : Task), w.tasks[i]? = some t → made t' ≠ some ad → ∀ r a, .created r a ad ∉ w.tasks.set i t' := by
    intro i t t' hi hn r a hm
    rcases mem_set hi hm with hm | hm
    · rw [← hm] at hn; exact hn rfl
    · exact h.never r a (erase_mem hm)
  cases e with
  | pay r lane amount =>
    unfold JsPay.step
    rcases pay_cases sign w.mgr r lane amount with ⟨hp, _⟩ | ⟨cs, hg, hw, ⟨_, hp⟩ | ⟨text, _, hp⟩⟩
    · simp only [hp]; exact h
    · simp only [hp]
      refine h.book r _ ?_ _ h.none
      exact h.nobody r cs hg
    · simp only [hp]
      refine h.book r _ ?_ _ fun v hv => ?_
      · exact h.nobody r cs hg
      rcases List.mem_append.1 hv with hv | hv
      · exact h.none v hv
      · rw [List.mem_singleton] at hv; subst hv; exact h.nobody r cs hg
  | topup r a =>
    refine h.tasks _ _ _ h.real fun r' a' hm => ?_
    rcases List.mem_append.1 hm with hm | hm
    · exact h.never _ _ hm
    · have := start_made w.mgr r a
      rw [List.mem_singleton] at hm
      rw [← hm] at this; cases this
  | fail i => exact herase i
  | reject i =>
    rw [JsPay.step]
    cases hi : w.tasks[i]? with
    | none => exact h
    | some t =>
      cases t <;> dsimp only <;> try exact h
      · split
        · exact h.tasks _ _ _ h.real (hset _ hi (by simp [made]))
        · exact h
      · split
        · exact (herase i).tasks _ _ _ h.real (herase i).never
        · exact h
  | other => exact h.tasks _ _ _ h.real h.never
  | go i addr =>
    rw [JsPay.step]
    cases hi : w.tasks[i]? with
    | none => exact h
    | some t =>
      have hmem := List.mem_of_getElem? hi
      cases t with
      | update r a =>
        dsimp only
        cases mget w.mgr r with
        | none => exact herase i
        | some cs => exact h.tasks _ _ _ h.real (hset _ hi (by simp [made]))
      | updateTo r a ad' n =>
        dsimp only
        split
        · exact h.tasks _ _ _ (deposit_isSome _ _ _ h.real) (hset _ hi (by simp [made]))
        · exact herase i
      | updated r a ad' =>
        dsimp only
        cases hg : mget w.mgr r with
        | none => exact herase i
        | some cs =>
          refine (herase i).book r _ ?_ _ h.none
          exact h.nobody r cs hg
      | create r a =>
        dsimp only
        split
        · exact herase i
        · exact h.tasks _ _ _ h.real (hset _ hi (by simp [made]))
      | creating r a n =>
        dsimp only
        split
        · exact h
        · rename_i hf
          split
          · refine h.tasks _ _ _ (deposit_isSome _ _ _ h.real) (hset _ hi ?_)
            intro he
            simp only [made, Option.some.injEq] at he
            subst he
            exact hf h.real
          · exact herase i
      | created r a ad' =>
        dsimp only
        exact (herase i).book r _ (fun he => h.never r a (he ▸ hmem)) _ h.none

theorem Dead.run (sign : Voucher → Option (List Char)) {ad : List Char} {w : World} (h : Dead ad w) (es : List Event) : Dead ad (run sign w es) := by
  induction es generalizing w with
  | nil => exact h
  | cons e es ih => exact ih (h.step sign e)

/-! ## A wallet that has sent nothing -/

structure Unused (w : World) : Prop where
  mgr : w.mgr = []
  nonce : w.nonce = 0
  chain : w.chain = []
  issued : w.issued = []
  tasks : ∀ t ∈ w.tasks, ∃ r a, t = .create r a

theorem Unused.step (sign : Voucher → Option (List Char)) {w : World} (h : Unused w) (e : Event) (he : e ≠ .other) : Unused (step sign w e) := by
  have hg : ∀ r, mget w.mgr r = none := fun r => by rw [h.mgr]; rfl
  cases e with
  | pay r lane amount =>
    have : pay sign w.mgr r lane amount = (w.mgr, .topup) := by unfold pay; rw [hg]
    unfold JsPay.step
    simp only [this]
    exact h
  | topup r a =>
    refine ⟨h.mgr, h.nonce, h.chain, h.issued, fun t ht => ?_⟩
    rcases List.mem_append.1 ht with ht | ht
    · exact h.tasks t ht
    · rw [List.mem_singleton] at ht
      subst ht
      refine ⟨r, a, ?_⟩
      unfold start
      rw [hg]; rfl
  | fail i => exact ⟨h.mgr, h.nonce, h.chain, h.issued, fun t ht => h.tasks t (erase_mem ht)⟩
  | reject i =>
    rw [JsPay.step]
    cases hi : w.tasks[i]? with
    | none => exact h
    | some t =>
      obtain ⟨r, a, rfl⟩ := h.tasks t (List.mem_of_getElem? hi)
      exact h
  | other => exact absurd rfl he
  | go i addr =>
    rw [JsPay.step]
    cases hi : w.tasks[i]? with
    | none => exact h
    | some t =>
      obtain ⟨r, a, rfl⟩ := h.tasks t (List.mem_of_getElem? hi)
      dsimp only
      rw [if_pos h.nonce]
      exact ⟨h.mgr, h.nonce, h.chain, h.issued, fun t ht => h.tasks t (erase_mem ht)⟩

theorem Unused.run (sign : Voucher → Option (List Char)) {w : World} (h : Unused w) (es : List Event) (ha : Alone es) : Unused (run sign w es) := by
  induction es generalizing w with
  | nil => exact h
  | cons e es ih => exact ih (h.step sign e fun he => ha (by rw [← he]; simp)) fun hm => ha (List.mem_cons_of_mem _ hm)

end FcRetrieval.JsPay
