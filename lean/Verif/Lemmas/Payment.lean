import Verif.Spec.Payment
/-! Helper lemmas: the payment manager. -/

set_option linter.unusedSimpArgs false

namespace FcRetrieval.Payment

variable {Sig : Type}

/-- The outbound channel to `r`, empty if there is none. -/
def outC (m : Mgr Sig) (r : Addr) : Chan Sig := (m.outbound r).getD ⟨"", 0, 0, fun _ => none⟩
/-- The inbound channel `ch`, empty if there is none. -/
def inC (m : Mgr Sig) (ch : Addr) : Chan Sig := (m.inbound ch).getD ⟨"", 0, 0, fun _ => none⟩

@[simp] theorem put_same {κ β : Type} [DecidableEq κ] (m : κ → Option β) (k : κ) (v : β) : put m k v k = some v := by
  simp [put]

theorem put_other {κ β : Type} [DecidableEq κ] (m : κ → Option β) {k i : κ} (v : β) (h : i ≠ k) : put m k v i = m i := by
  simp [put, h]

/-! ## the paying side -/

/-- What one call does, seen through the state. -/
structure Moved (m m' : Mgr Sig) (e : PayEvent Sig) : Prop where
  balance : ∀ r, (outC m' r).balance = (outC m r).balance + funded r [e]
  redeemed : ∀ r, (outC m' r).redeemed = (outC m r).redeemed + totalPaid r [e]
  laneRedeemed : ∀ r i, ((outC m' r).lane i).redeemed = ((outC m r).lane i).redeemed + (paidAmounts r i [e]).sum
  laneNonce : ∀ r i, ((outC m' r).lane i).nonce = (((outC m r).lane i).nonce + (paidAmounts r i [e]).length) % 2 ^ 64
  vouchers : ∀ r i, (issued r i [e]).map (fun v => (v.body.nonce, v.body.amount)) =
    cumulative (((outC m r).lane i).nonce) (((outC m r).lane i).redeemed) (paidAmounts r i [e])

theorem lane_put {c : Chan Sig} {i j : Nat} {l : Lane Sig} {b d : Int} {a : Addr} :
    (Chan.lane ⟨a, b, d, put c.lanes i l⟩ j) = if j = i then l else c.lane j := by
  unfold Chan.lane put
  split <;> simp_all

theorem lane_put' {c : Chan Sig} {i j : Nat} {l : Lane Sig} :
    (Chan.lane { c with lanes := put c.lanes i l } j) = if j = i then l else c.lane j := lane_put

/-- All nonces are `uint64`. -/
def NoncesOk (m : Mgr Sig) : Prop := ∀ r i, ((outC m r).lane i).nonce < 2 ^ 64

theorem lane_default {i : Nat} : (Chan.lane (⟨"", 0, 0, fun _ => none⟩ : Chan Sig) i) = newLane := rfl

theorem moved_refl {m m' : Mgr Sig} (hn : NoncesOk m) (h1 : ∀ r, (outC m' r).balance = (outC m r).balance)
    (h2 : ∀ r, (outC m' r).redeemed = (outC m r).redeemed)
    (h3 : ∀ r i, (outC m' r).lane i = (outC m r).lane i) : Moved m m' (.refused) := by
  constructor
  · intro r; simp [funded, h1]
  · intro r; simp [totalPaid, h2]
  · intro r i; simp [paidAmounts, h3]
  · intro r i; simp [paidAmounts, h3, Nat.mod_eq_of_lt (hn r i)]
  · intro r i; simp [paidAmounts, issued, cumulative]

theorem payStep_moved {sign : VBody → Option Sig} {m : Mgr Sig} (hn : NoncesOk m) (op : PayOp) :
    Moved m (payStep sign m op).1 (payStep sign m op).2 := by
  cases op with
  | topup r a ch =>
    cases ch with
    | failed => exact moved_refl hn (fun _ => rfl) (fun _ => rfl) (fun _ _ => rfl)
    | executed addr =>
      simp only [payStep, topup]
      cases hc : m.outbound r with
      | none =>
        have hcase : ∀ r', outC (topupCreate m r a addr) r' = if r' = r then ⟨addr, a, 0, fun _ => none⟩ else outC m r' := by
          intro r'
          unfold outC topupCreate put
          by_cases h : r' = r <;> simp [h]
        have h0 : outC m r = ⟨"", 0, 0, fun _ => none⟩ := by simp [outC, hc]
        constructor
        · intro r'
          simp only [hcase, funded]
          by_cases h : r' = r
          · subst h; simp [h0]
          · simp [h, Ne.symm h]
        · intro r'
          simp only [hcase, totalPaid]
          by_cases h : r' = r
          · subst h; simp [h0]
          · simp [h]
        · intro r' i
          simp only [hcase, paidAmounts]
          by_cases h : r' = r
          · subst h; simp [h0, Chan.lane]
          · simp [h]
        · intro r' i
          simp only [hcase, paidAmounts]
          by_cases h : r' = r
          · subst h; simp [h0, Chan.lane, newLane]
          · simp [h, Nat.mod_eq_of_lt (hn r' i)]
        · intro r' i; simp [paidAmounts, issued, cumulative]
      | some c =>
        have hcase : ∀ r', outC (topupAdd m r c a) r' = if r' = r then { c with balance := c.balance + a } else outC m r' := by
          intro r'
          unfold outC topupAdd put
          by_cases h : r' = r <;> simp [h]
        have h0 : outC m r = c := by simp [outC, hc]
        constructor
        · intro r'
          simp only [hcase, funded]
          by_cases h : r' = r
          · subst h; simp [h0]
          · simp [h, Ne.symm h]
        · intro r'
          simp only [hcase, totalPaid]
          by_cases h : r' = r
          · subst h; simp [h0]
          · simp [h]
        · intro r' i
          simp only [hcase, paidAmounts]
          by_cases h : r' = r
          · subst h; simp [h0, Chan.lane]
          · simp [h]
        · intro r' i
          have := hn r' i
          simp only [hcase, paidAmounts]
          by_cases h : r' = r
          · subst h
            rw [h0] at this ⊢
            simp [Chan.lane] at this ⊢
            rw [Nat.mod_eq_of_lt this]
          · simp [h, Nat.mod_eq_of_lt this]
        · intro r' i; simp [paidAmounts, issued, cumulative]
  | pay r lane a =>
    simp only [payStep, pay]
    cases hc : m.outbound r with
    | none => exact moved_refl hn (fun _ => rfl) (fun _ => rfl) (fun _ _ => rfl)
    | some c =>
      have h0 : outC m r = c := by simp [outC, hc]
      simp only
      by_cases hb : c.balance < c.redeemed + a
      · rw [if_pos hb]
        exact moved_refl hn (fun _ => rfl) (fun _ => rfl) (fun _ _ => rfl)
      · rw [if_neg hb]
        cases hs : sign ⟨c.addr, lane, (c.lane lane).nonce, (c.lane lane).redeemed + a⟩ with
        | none =>
          simp only
          have hcase : ∀ r', outC { m with outbound := put m.outbound r { c with lanes := put c.lanes lane (c.lane lane) } } r' =
              if r' = r then { c with lanes := put c.lanes lane (c.lane lane) } else outC m r' := by
            intro r'
            unfold outC put
            by_cases h : r' = r <;> simp [h]
          apply moved_refl hn
          · intro r'; simp only [hcase]; by_cases h : r' = r
            · subst h; simp [h0]
            · simp [h]
          · intro r'; simp only [hcase]; by_cases h : r' = r
            · subst h; simp [h0]
            · simp [h]
          · intro r' i; simp only [hcase]; by_cases h : r' = r
            · subst h
              simp only [if_pos, h0]
              rw [lane_put']
              split
              · rename_i hi; rw [hi]
              · rfl
            · simp [h]
        | some sig =>
          simp only
          generalize hls : c.lane lane = ls at *
          generalize hc' : ({ c with redeemed := c.redeemed + a, lanes := put c.lanes lane ⟨(ls.nonce + 1) % 2 ^ 64, ls.redeemed + a, ls.vouchers ++ [⟨⟨c.addr, lane, ls.nonce, ls.redeemed + a⟩, sig⟩]⟩ } : Chan Sig) = c'
          have hcase : ∀ r', outC { m with outbound := put m.outbound r c' } r' = if r' = r then c' else outC m r' := by
            intro r'
            unfold outC put
            by_cases h : r' = r <;> simp [h]
          have hlane : ∀ j, c'.lane j = if j = lane then ⟨(ls.nonce + 1) % 2 ^ 64, ls.redeemed + a, ls.vouchers ++ [⟨⟨c.addr, lane, ls.nonce, ls.redeemed + a⟩, sig⟩]⟩ else c.lane j := by
            intro j; subst hc'; exact lane_put
          constructor
          · intro r'
            simp only [hcase, funded]
            by_cases h : r' = r
            · subst h; subst hc'; simp [h0]
            · simp [h]
          · intro r'
            simp only [hcase, totalPaid]
            by_cases h : r' = r
            · subst h; subst hc'; simp [h0]
            · simp [h, Ne.symm h]
          · intro r' i
            simp only [hcase, paidAmounts]
            by_cases h : r' = r
            · subst h
              simp only [if_pos, h0, hlane, true_and]
              by_cases hi : i = lane
              · subst hi; simp [hls]
              · simp [hi, Ne.symm hi]
            · simp [h, Ne.symm h]
          · intro r' i
            have := hn r' i
            simp only [hcase, paidAmounts]
            by_cases h : r' = r
            · subst h
              simp only [if_pos, h0, hlane, true_and] at this ⊢
              by_cases hi : i = lane
              · subst hi; simp [hls]
              · simp [hi, Ne.symm hi, Nat.mod_eq_of_lt this]
            · simp [h, Ne.symm h, Nat.mod_eq_of_lt this]
          · intro r' i
            have := hn r' i
            simp only [paidAmounts, issued]
            by_cases h : r = r' ∧ lane = i
            · obtain ⟨rfl, rfl⟩ := h
              rw [h0, hls] at this
              simp [cumulative, h0, hls, Nat.mod_eq_of_lt this]
            · simp [h, cumulative]

theorem moved_nonces {m m' : Mgr Sig} {e : PayEvent Sig} (h : Moved m m' e) : NoncesOk m' := by
  intro r i
  rw [h.laneNonce]
  exact Nat.mod_lt _ (by decide)

theorem nonces_new {a : Addr} : NoncesOk (newMgr a : Mgr Sig) := by
  intro r i
  simp [newMgr, outC, Chan.lane, newLane]

theorem funded_cons (r : Addr) (e : PayEvent Sig) (es) : funded r (e :: es) = funded r [e] + funded r es := by
  cases e <;> simp [funded]
theorem totalPaid_cons (r : Addr) (e : PayEvent Sig) (es) : totalPaid r (e :: es) = totalPaid r [e] + totalPaid r es := by
  cases e <;> simp [totalPaid]
theorem paidAmounts_cons (r : Addr) (i : Nat) (e : PayEvent Sig) (es) :
    paidAmounts r i (e :: es) = paidAmounts r i [e] ++ paidAmounts r i es := by
  cases e <;> simp [paidAmounts]
  split <;> simp
theorem issued_cons (r : Addr) (i : Nat) (e : PayEvent Sig) (es) :
    issued r i (e :: es) = issued r i [e] ++ issued r i es := by
  cases e <;> simp [issued]
  split <;> simp

theorem cumulative_append (as bs : List Int) : ∀ (n : Nat) (s : Int),
    cumulative n s (as ++ bs) = cumulative n s as ++ cumulative (n + as.length) (s + as.sum) bs := by
  induction as with
  | nil => intro n s; simp [cumulative]
  | cons a as ih =>
    intro n s
    simp only [List.cons_append, cumulative, ih, List.length_cons, List.sum_cons]
    rw [Nat.add_right_comm, Int.add_assoc, ← Nat.add_assoc, Nat.add_right_comm]

theorem cumulative_mod (as : List Int) : ∀ (n : Nat) (s : Int), cumulative (n % 2 ^ 64) s as = cumulative n s as := by
  induction as with
  | nil => intro n s; rfl
  | cons a as ih =>
    intro n s
    simp only [cumulative]
    rw [← ih (n % 2 ^ 64 + 1), ← ih (n + 1)]
    simp

/-- A whole history, seen through the state. -/
theorem payRun_spec {sign : VBody → Option Sig} : ∀ (ops : List PayOp) {m : Mgr Sig}, NoncesOk m →
    (∀ r, (outC (payRun sign m ops).1 r).balance = (outC m r).balance + funded r (payRun sign m ops).2) ∧
    (∀ r, (outC (payRun sign m ops).1 r).redeemed = (outC m r).redeemed + totalPaid r (payRun sign m ops).2) ∧
    (∀ r i, ((outC (payRun sign m ops).1 r).lane i).redeemed =
      ((outC m r).lane i).redeemed + (paidAmounts r i (payRun sign m ops).2).sum) ∧
    (∀ r i, (issued r i (payRun sign m ops).2).map (fun v => (v.body.nonce, v.body.amount)) =
      cumulative (((outC m r).lane i).nonce) (((outC m r).lane i).redeemed) (paidAmounts r i (payRun sign m ops).2))
  | [], m, hn => by
    simp [payRun, funded, totalPaid, paidAmounts, issued, cumulative]
  | op :: ops, m, hn => by
    have h1 := payStep_moved (sign := sign) hn op
    obtain ⟨i1, i2, i3, i4⟩ := payRun_spec (sign := sign) ops (moved_nonces h1)
    have e1 : (payRun sign m (op :: ops)).1 = (payRun sign (payStep sign m op).1 ops).1 := rfl
    have e2 : (payRun sign m (op :: ops)).2 = (payStep sign m op).2 :: (payRun sign (payStep sign m op).1 ops).2 := rfl
    rw [e1, e2]
    refine ⟨?_, ?_, ?_, ?_⟩
    · intro r
      rw [i1 r, h1.balance r, funded_cons r _ (payRun sign (payStep sign m op).1 ops).2]; omega
    · intro r
      rw [i2 r, h1.redeemed r, totalPaid_cons r _ (payRun sign (payStep sign m op).1 ops).2]; omega
    · intro r i
      rw [i3 r i, h1.laneRedeemed r i, paidAmounts_cons r i _ (payRun sign (payStep sign m op).1 ops).2, List.sum_append]; omega
    · intro r i
      rw [issued_cons r i _ (payRun sign (payStep sign m op).1 ops).2, List.map_append, i4 r i, h1.vouchers r i, paidAmounts_cons r i _ (payRun sign (payStep sign m op).1 ops).2, cumulative_append, h1.laneNonce,
        cumulative_mod, h1.laneRedeemed]

/-- Within funds. -/
def Solvent (m : Mgr Sig) : Prop := ∀ r, (outC m r).redeemed ≤ (outC m r).balance

theorem payStep_solvent {sign : VBody → Option Sig} {m : Mgr Sig} (hs : Solvent m) (hn : NoncesOk m) {op : PayOp} (hop : NonNeg op) :
    Solvent (payStep sign m op).1 := by
  intro r
  have hm := payStep_moved (sign := sign) hn op
  rw [hm.balance, hm.redeemed]
  have h0 := hs r
  cases op with
  | topup r' a ch =>
    cases ch with
    | failed => simp [payStep, topup, funded, totalPaid]; exact h0
    | executed addr =>
      have hop : 0 ≤ a := hop
      simp only [payStep, topup]
      cases m.outbound r' <;> simp [funded, totalPaid] <;> split <;> omega
  | pay r' lane a =>
    simp only [payStep, pay]
    cases hc : m.outbound r' with
    | none => simpa [funded, totalPaid] using h0
    | some c =>
      simp only
      by_cases hb : c.balance < c.redeemed + a
      · rw [if_pos hb]; simpa [funded, totalPaid] using h0
      · rw [if_neg hb]
        cases sign ⟨c.addr, lane, (c.lane lane).nonce, (c.lane lane).redeemed + a⟩ with
        | none => simpa [funded, totalPaid] using h0
        | some sig =>
          simp only [funded, totalPaid]
          by_cases h : r' = r
          · subst h
            have : outC m r' = c := by simp [outC, hc]
            rw [this]
            simp; omega
          · simp [h]; exact h0

theorem payRun_solvent {sign : VBody → Option Sig} : ∀ (ops : List PayOp) {m : Mgr Sig}, Solvent m → NoncesOk m →
    (∀ op ∈ ops, NonNeg op) → Solvent (payRun sign m ops).1
  | [], _, hs, _, _ => hs
  | op :: ops, m, hs, hn, hops => by
    have h1 := payStep_moved (sign := sign) hn op
    exact payRun_solvent ops (payStep_solvent hs hn (hops op (by simp))) (moved_nonces h1)
      (fun o ho => hops o (by simp [ho]))

/-- Every amount paid is one of the requested ones. -/
theorem payStep_amounts {sign : VBody → Option Sig} {m : Mgr Sig} {op : PayOp} (hop : NonNeg op) (r : Addr) (i : Nat) :
    ∀ a ∈ paidAmounts r i [(payStep sign m op).2], 0 ≤ a := by
  cases op with
  | topup r' a ch =>
    intro x hx
    cases ch with
    | failed => simp [payStep, topup, paidAmounts] at hx
    | executed addr =>
      simp only [payStep, topup] at hx
      cases h : m.outbound r' <;> simp [h, paidAmounts] at hx
  | pay r' lane a =>
    intro x hx
    simp only [payStep, pay] at hx
    cases hc : m.outbound r' with
    | none => simp [hc, paidAmounts] at hx
    | some c =>
      simp only [hc] at hx
      by_cases hb : c.balance < c.redeemed + a
      · rw [if_pos hb] at hx; simp [paidAmounts] at hx
      · rw [if_neg hb] at hx
        cases hs : sign ⟨c.addr, lane, (c.lane lane).nonce, (c.lane lane).redeemed + a⟩ with
        | none => simp [hs, paidAmounts] at hx
        | some sig =>
          simp only [hs, paidAmounts] at hx
          split at hx
          · simp at hx; subst hx; exact hop
          · simp at hx

theorem payRun_amounts {sign : VBody → Option Sig} : ∀ (ops : List PayOp) {m : Mgr Sig}, (∀ op ∈ ops, NonNeg op) →
    ∀ (r : Addr) (i : Nat), ∀ a ∈ paidAmounts r i (payRun sign m ops).2, 0 ≤ a
  | [], _, _, r, i => by simp [payRun, paidAmounts]
  | op :: ops, m, hops, r, i => by
    intro a ha
    have e2 : (payRun sign m (op :: ops)).2 = (payStep sign m op).2 :: (payRun sign (payStep sign m op).1 ops).2 := rfl
    rw [e2, paidAmounts_cons, List.mem_append] at ha
    rcases ha with ha | ha
    · exact payStep_amounts (hops op (by simp)) r i a ha
    · exact payRun_amounts ops (fun o ho => hops o (by simp [ho])) r i a ha

theorem highest_cumulative (vs : List (Voucher Sig)) : ∀ (as : List Int) (n : Nat) (s : Int), 0 ≤ s → (∀ a ∈ as, 0 ≤ a) →
    vs.map (fun v => (v.body.nonce, v.body.amount)) = cumulative n s as → highest vs ≤ s + as.sum := by
  induction vs with
  | nil =>
    intro as n s hs has h
    cases as with
    | nil => simp [highest]; exact hs
    | cons a as => simp [cumulative] at h
  | cons v vs ih =>
    intro as n s hs has h
    cases as with
    | nil => simp [cumulative] at h
    | cons a as =>
      simp only [List.map_cons, cumulative, List.cons.injEq, Prod.mk.injEq] at h
      have ha := has a (by simp)
      have := ih as (n + 1) (s + a) (by omega) (fun b hb => has b (by simp [hb])) h.2
      have hsum : 0 ≤ as.sum := by
        have hnn : ∀ b ∈ as, 0 ≤ b := fun b hb => has b (by simp [hb])
        clear ih h this has
        induction as with
        | nil => simp
        | cons b bs ihb =>
          have h1 := hnn b (by simp)
          have h2 := ihb (fun c hc => hnn c (by simp [hc]))
          simp; omega
      simp only [highest, List.sum_cons]
      omega

theorem sum_nonneg : ∀ {as : List Int}, (∀ a ∈ as, 0 ≤ a) → 0 ≤ as.sum
  | [], _ => by simp
  | a :: as, h => by
    have h1 := h a (by simp)
    have h2 := sum_nonneg (as := as) (fun b hb => h b (by simp [hb]))
    simp; omega

/-- What was paid on some lanes is at most what was paid altogether. -/
theorem lanes_le_total (r : Addr) {lanes : List Nat} (hnd : lanes.Nodup) : ∀ (es : List (PayEvent Sig)),
    (∀ i, ∀ a ∈ paidAmounts r i es, 0 ≤ a) →
    (lanes.map fun i => (paidAmounts r i es).sum).sum ≤ totalPaid r es
  | [], _ => by
    have : (lanes.map fun i => (paidAmounts r i ([] : List (PayEvent Sig))).sum) = lanes.map fun _ => (0 : Int) := by
      simp [paidAmounts]
    rw [this]
    clear this hnd
    induction lanes with
    | nil => simp [totalPaid]
    | cons a l ih => simpa [totalPaid] using ih
  | e :: es, h => by
    have ih := lanes_le_total r hnd es (fun i a ha => h i a (by rw [paidAmounts_cons]; simp [ha]))
    have hsplit : ∀ l : List Nat, (l.map fun i => (paidAmounts r i (e :: es)).sum).sum =
        (l.map fun i => (paidAmounts r i [e]).sum).sum + (l.map fun i => (paidAmounts r i es).sum).sum := by
      intro l
      induction l with
      | nil => simp
      | cons i l ihl =>
        simp only [List.map_cons, List.sum_cons, ihl]
        rw [paidAmounts_cons, List.sum_append]; omega
    rw [hsplit, totalPaid_cons]
    have hone : (lanes.map fun i => (paidAmounts r i [e]).sum).sum ≤ totalPaid r [e] := by
      have hzero : ∀ l : List Nat, (∀ i ∈ l, (paidAmounts r i [e]).sum = 0) →
          (l.map fun i => (paidAmounts r i [e]).sum).sum = 0 := by
        intro l hl
        induction l with
        | nil => simp
        | cons i l ihl => simp [hl i (by simp), ihl (fun j hj => hl j (by simp [hj]))]
      cases e with
      | toppedUp r' a => rw [hzero lanes (by simp [paidAmounts])]; simp [totalPaid]
      | refused => rw [hzero lanes (by simp [paidAmounts])]; simp [totalPaid]
      | paid r' lane a ch v =>
        by_cases hr : r' = r
        · subst hr
          have ha : 0 ≤ a := h lane a (by simp [paidAmounts])
          have hall : ∀ l : List Nat, l.Nodup → (l.map fun i => (paidAmounts r' i [(PayEvent.paid r' lane a ch v)]).sum).sum ≤ a := by
            intro l hl
            induction l with
            | nil => simpa using ha
            | cons i l ihl =>
              rw [List.nodup_cons] at hl
              by_cases hi : lane = i
              · subst hi
                have hz : ∀ j ∈ l, (paidAmounts r' j [(PayEvent.paid r' lane a ch v)]).sum = 0 := by
                  intro j hj
                  have : lane ≠ j := fun h => hl.1 (h ▸ hj)
                  simp [paidAmounts, this]
                have : (l.map fun i => (paidAmounts r' i [(PayEvent.paid r' lane a ch v)]).sum).sum = 0 := by
                  clear ihl hl
                  induction l with
                  | nil => simp
                  | cons j l ihl => simp [hz j (by simp), ihl (fun k hk => hz k (by simp [hk]))]
                simp only [List.map_cons, List.sum_cons, this]
                simp [paidAmounts]
              · have := ihl hl.2
                simp only [List.map_cons, List.sum_cons]
                simp [paidAmounts, hi] at this ⊢
                exact this
          simpa [totalPaid] using hall lanes hnd
        · rw [hzero lanes (by simp [paidAmounts, hr])]; simp [totalPaid, hr]
    omega

end FcRetrieval.Payment
