import Verif.Lemmas.Payment
/-! Helper lemmas: the receiving side of the payment manager, and concurrency. -/

set_option linter.unusedSimpArgs false

namespace FcRetrieval.Payment

variable {Sig : Type}

/-- `recvCheck` either credits, or leaves every lane and the total as they were. -/
theorem recvCheck_spec (verify : Sig → Addr → VBody → Bool) (me : Addr) (c : Chan Sig) (v : Voucher Sig) (ch : ChainView) :
    (recvCheck verify me c v ch).1.balance = c.balance ∧
    ((∃ a, (recvCheck verify me c v ch).2 = .credited a ∧ a = v.body.amount - (c.lane v.body.lane).redeemed ∧ 0 < a ∧
        (c.lane v.body.lane).nonce ≤ v.body.nonce ∧
        (recvCheck verify me c v ch).1.redeemed = c.redeemed + a ∧ c.redeemed + a ≤ c.balance ∧
        ch.to = .key me ∧ (∃ k, ch.frm = .key k ∧ verify v.sig k v.body = true) ∧
        ∀ j, (recvCheck verify me c v ch).1.lane j = if j = v.body.lane then
          ⟨(v.body.nonce + 1) % 2 ^ 64, v.body.amount, (c.lane v.body.lane).vouchers ++ [v]⟩ else c.lane j) ∨
     ((∀ a, (recvCheck verify me c v ch).2 ≠ .credited a) ∧ (recvCheck verify me c v ch).1.redeemed = c.redeemed ∧
        ∀ j, (recvCheck verify me c v ch).1.lane j = c.lane j)) := by
  have hsame : ∀ j, Chan.lane { c with lanes := put c.lanes v.body.lane (c.lane v.body.lane) } j = c.lane j := by
    intro j
    rw [lane_put']
    split
    · rename_i h; rw [h]
    · rfl
  unfold recvCheck
  cases hto : ch.to with
  | absent => simp
  | unresolved => simp
  | key to =>
    simp only
    by_cases hme : to ≠ me
    · rw [if_pos hme]; simp
    rw [if_neg hme]
    cases hfrm : ch.frm with
    | absent => simp
    | unresolved => simp
    | key frm =>
      simp only
      by_cases hv : verify v.sig frm v.body = false
      · rw [if_pos hv]; simp
      rw [if_neg hv]
      by_cases h1 : (c.lane v.body.lane).nonce > v.body.nonce
      · rw [if_pos h1]; exact ⟨rfl, Or.inr ⟨by simp, rfl, hsame⟩⟩
      rw [if_neg h1]
      by_cases h2 : (c.lane v.body.lane).redeemed ≥ v.body.amount
      · rw [if_pos h2]; exact ⟨rfl, Or.inr ⟨by simp, rfl, hsame⟩⟩
      rw [if_neg h2]
      by_cases h3 : c.balance < c.redeemed + (v.body.amount - (c.lane v.body.lane).redeemed)
      · rw [if_pos h3]; exact ⟨rfl, Or.inr ⟨by simp, rfl, hsame⟩⟩
      rw [if_neg h3]
      refine ⟨rfl, Or.inl ⟨_, rfl, rfl, by omega, by omega, rfl, by omega, ?_, ⟨frm, rfl, by simpa using hv⟩, fun j => lane_put⟩⟩
      simp only [ne_eq, Decidable.not_not] at hme
      rw [hme]

/-- What one call of `Receive` does, seen through the state. -/
theorem receive_spec (verify : Sig → Addr → VBody → Bool) (m : Mgr Sig) (op : RecvOp Sig) :
    (receive verify m op.channel op.voucher op.chain).1.address = m.address ∧
    ((∃ a v ch, (receive verify m op.channel op.voucher op.chain).2 = .credited a ∧ op.voucher = some v ∧ op.chain = some ch ∧
        a = v.body.amount - ((inC m op.channel).lane v.body.lane).redeemed ∧ 0 < a ∧
        ((inC m op.channel).lane v.body.lane).nonce ≤ v.body.nonce ∧
        (inC m op.channel).redeemed + a ≤ ch.balance ∧
        ch.to = .key m.address ∧ (∃ k, ch.frm = .key k ∧ verify v.sig k v.body = true) ∧
        (∀ x, (inC (receive verify m op.channel op.voucher op.chain).1 x).redeemed =
          (inC m x).redeemed + if x = op.channel then a else 0) ∧
        (∀ x j, (inC (receive verify m op.channel op.voucher op.chain).1 x).lane j = if x = op.channel ∧ j = v.body.lane then
          ⟨(v.body.nonce + 1) % 2 ^ 64, v.body.amount, ((inC m op.channel).lane v.body.lane).vouchers ++ [v]⟩
          else (inC m x).lane j)) ∨
     ((∀ a, (receive verify m op.channel op.voucher op.chain).2 ≠ .credited a) ∧
        (∀ x, (inC (receive verify m op.channel op.voucher op.chain).1 x).redeemed = (inC m x).redeemed) ∧
        (∀ x j, (inC (receive verify m op.channel op.voucher op.chain).1 x).lane j = (inC m x).lane j))) := by
  obtain ⟨channel, voucher, chain⟩ := op
  simp only
  cases voucher with
  | none => exact ⟨by simp [receive], Or.inr ⟨by simp [receive], by simp [receive], by simp [receive]⟩⟩
  | some v =>
    cases chain with
    | none => exact ⟨by simp [receive], Or.inr ⟨by simp [receive], by simp [receive], by simp [receive]⟩⟩
    | some ch =>
      simp only [receive]
      have main : ∀ (c : Chan Sig), c.redeemed = (inC m channel).redeemed → (∀ j, c.lane j = (inC m channel).lane j) →
          c.balance = ch.balance → ∀ (m' : Mgr Sig), m' = { m with inbound := put m.inbound channel (recvCheck verify m.address c v ch).1 } →
          m'.address = m.address ∧
          ((∃ a v_1 ch_1, (recvCheck verify m.address c v ch).2 = .credited a ∧ some v = some v_1 ∧ some ch = some ch_1 ∧
            a = v_1.body.amount - ((inC m channel).lane v_1.body.lane).redeemed ∧ 0 < a ∧
            ((inC m channel).lane v_1.body.lane).nonce ≤ v_1.body.nonce ∧
            (inC m channel).redeemed + a ≤ ch_1.balance ∧
            ch_1.to = .key m.address ∧ (∃ k, ch_1.frm = .key k ∧ verify v_1.sig k v_1.body = true) ∧
            (∀ x, (inC m' x).redeemed = (inC m x).redeemed + if x = channel then a else 0) ∧
            (∀ x j, (inC m' x).lane j = if x = channel ∧ j = v_1.body.lane then
              ⟨(v_1.body.nonce + 1) % 2 ^ 64, v_1.body.amount, ((inC m channel).lane v_1.body.lane).vouchers ++ [v_1]⟩
              else (inC m x).lane j)) ∨
           ((∀ a, (recvCheck verify m.address c v ch).2 ≠ .credited a) ∧
            (∀ x, (inC m' x).redeemed = (inC m x).redeemed) ∧
            (∀ x j, (inC m' x).lane j = (inC m x).lane j))) := by
        intro c hcr hcl hcb m' hm'
        have hin : ∀ x, inC m' x = if x = channel then (recvCheck verify m.address c v ch).1 else inC m x := by
          intro x; subst hm'; unfold inC put
          by_cases h : x = channel <;> simp [h]
        refine ⟨by rw [hm'], ?_⟩
        obtain ⟨_, ⟨a, h1, h2, h3, h4, h5, h6, h7, h8, h9⟩ | ⟨h1, h2, h3⟩⟩ := recvCheck_spec verify m.address c v ch
        · refine Or.inl ⟨a, v, ch, h1, rfl, rfl, ?_, h3, ?_, ?_, h7, h8, ?_, ?_⟩
          · rw [h2, hcl]
          · rw [← hcl]; exact h4
          · rw [← hcr, ← hcb]; exact h6
          · intro x
            rw [hin]
            by_cases hx : x = channel
            · subst hx; simp [h5, hcr]
            · simp [hx]
          · intro x j
            rw [hin]
            by_cases hx : x = channel
            · subst hx; simp only [if_pos, h9, hcl, true_and]
            · simp [hx]
        · refine Or.inr ⟨h1, ?_, ?_⟩
          · intro x
            rw [hin]
            by_cases hx : x = channel
            · subst hx; simp [h2, hcr]
            · simp [hx]
          · intro x j
            rw [hin]
            by_cases hx : x = channel
            · subst hx; simp [h3, hcl]
            · simp [hx]
      cases hc : m.inbound channel with
      | none =>
        have h0 : inC m channel = ⟨"", 0, 0, fun _ => none⟩ := by simp [inC, hc]
        exact main ⟨channel, ch.balance, 0, fun _ => none⟩ (by rw [h0]) (by rw [h0]; intro j; rfl) rfl _ rfl
      | some c =>
        have h0 : inC m channel = c := by simp [inC, hc]
        simp only [recvFound]
        by_cases hb : c.balance > ch.balance
        · rw [if_pos hb]
          exact ⟨rfl, Or.inr ⟨by simp, fun _ => rfl, fun _ _ => rfl⟩⟩
        · rw [if_neg hb]
          exact main { c with balance := ch.balance } (by rw [h0]) (by rw [h0]; intro j; rfl) rfl _ rfl

theorem credits_cons (x : Addr) (i : Nat) (op : RecvOp Sig) (ops o outs) :
    credits x i (op :: ops) (o :: outs) = credits x i [op] [o] ++ credits x i ops outs := by
  cases o with
  | credited a =>
    cases hv : op.voucher with
    | none => simp [credits, hv]
    | some v =>
      by_cases h : op.channel = x ∧ v.body.lane = i <;> simp [credits, hv, h]
  | error => simp [credits]
  | panic => simp [credits]

theorem accepted_cons (x : Addr) (i : Nat) (op : RecvOp Sig) (ops o outs) :
    accepted x i (op :: ops) (o :: outs) = accepted x i [op] [o] ++ accepted x i ops outs := by
  cases o with
  | credited a =>
    cases hv : op.voucher with
    | none => simp [accepted, hv]
    | some v =>
      by_cases h : op.channel = x ∧ v.body.lane = i <;> simp [accepted, hv, h]
  | error => simp [accepted]
  | panic => simp [accepted]

theorem totalCredited_cons (x : Addr) (op : RecvOp Sig) (ops o outs) :
    totalCredited x (op :: ops) (o :: outs) = totalCredited x [op] [o] + totalCredited x ops outs := by
  cases o <;> simp [totalCredited]

theorem runningSums_append (as bs : List Int) : ∀ s, runningSums s (as ++ bs) = runningSums s as ++ runningSums (s + as.sum) bs := by
  induction as with
  | nil => intro s; simp [runningSums]
  | cons a as ih => intro s; simp [runningSums, ih, Int.add_assoc]

/-- A step seen through the spec functions. -/
theorem receive_moved (verify : Sig → Addr → VBody → Bool) (m : Mgr Sig) (op : RecvOp Sig) (x : Addr) (i : Nat) :
    (inC (receive verify m op.channel op.voucher op.chain).1 x).redeemed =
      (inC m x).redeemed + totalCredited x [op] [(receive verify m op.channel op.voucher op.chain).2] ∧
    ((inC (receive verify m op.channel op.voucher op.chain).1 x).lane i).redeemed =
      ((inC m x).lane i).redeemed + (credits x i [op] [(receive verify m op.channel op.voucher op.chain).2]).sum ∧
    accepted x i [op] [(receive verify m op.channel op.voucher op.chain).2] =
      runningSums ((inC m x).lane i).redeemed (credits x i [op] [(receive verify m op.channel op.voucher op.chain).2]) ∧
    (∀ a ∈ credits x i [op] [(receive verify m op.channel op.voucher op.chain).2], 0 < a) := by
  obtain ⟨_, ⟨a, v, ch, h1, h2, h3, h4, h5, h6, h7, _, _, h8, h9⟩ | ⟨h1, h2, h3⟩⟩ := receive_spec verify m op
  · rw [h1]
    rw [h8 x, h9 x i]
    by_cases hx : op.channel = x
    · subst hx
      by_cases hi : v.body.lane = i
      · subst hi
        simp [totalCredited, credits, accepted, h2, runningSums]
        omega
      · simp [totalCredited, credits, accepted, h2, hi, Ne.symm hi, runningSums]
    · simp [totalCredited, credits, accepted, h2, hx, Ne.symm hx, runningSums]
  · rw [h2 x, h3 x i]
    cases h : (receive verify m op.channel op.voucher op.chain).2 with
    | credited a => exact absurd h (h1 a)
    | error => simp [totalCredited, credits, accepted, runningSums]
    | panic => simp [totalCredited, credits, accepted, runningSums]

theorem recvRun_cons (verify : Sig → Addr → VBody → Bool) (m : Mgr Sig) (op : RecvOp Sig) (ops) :
    recvRun verify m (op :: ops) = ((recvRun verify (receive verify m op.channel op.voucher op.chain).1 ops).1,
      (receive verify m op.channel op.voucher op.chain).2 :: (recvRun verify (receive verify m op.channel op.voucher op.chain).1 ops).2) := rfl

theorem recvRun_spec (verify : Sig → Addr → VBody → Bool) (x : Addr) (i : Nat) : ∀ (ops : List (RecvOp Sig)) (m : Mgr Sig),
    (inC (recvRun verify m ops).1 x).redeemed = (inC m x).redeemed + totalCredited x ops (recvRun verify m ops).2 ∧
    ((inC (recvRun verify m ops).1 x).lane i).redeemed =
      ((inC m x).lane i).redeemed + (credits x i ops (recvRun verify m ops).2).sum ∧
    accepted x i ops (recvRun verify m ops).2 =
      runningSums ((inC m x).lane i).redeemed (credits x i ops (recvRun verify m ops).2) ∧
    (∀ a ∈ credits x i ops (recvRun verify m ops).2, 0 < a)
  | [], m => by simp [recvRun, totalCredited, credits, accepted, runningSums]
  | op :: ops, m => by
    obtain ⟨a1, a2, a3, a4⟩ := receive_moved verify m op x i
    obtain ⟨b1, b2, b3, b4⟩ := recvRun_spec verify x i ops (receive verify m op.channel op.voucher op.chain).1
    rw [recvRun_cons]
    generalize hr : (receive verify m op.channel op.voucher op.chain) = r at *
    generalize hrr : recvRun verify r.1 ops = rr at *
    simp only
    rw [totalCredited_cons x op ops, credits_cons x i op ops, accepted_cons x i op ops]
    refine ⟨by omega, ?_, ?_, ?_⟩
    · rw [List.sum_append]; omega
    · rw [runningSums_append, a3, b3, a2]
    · intro a ha
      rcases List.mem_append.1 ha with ha | ha
      · exact a4 a ha
      · exact b4 a ha

theorem recvRun_address (verify : Sig → Addr → VBody → Bool) : ∀ (ops : List (RecvOp Sig)) (m : Mgr Sig),
    (recvRun verify m ops).1.address = m.address
  | [], _ => rfl
  | op :: ops, m => by
    rw [recvRun_cons]
    simp only
    rw [recvRun_address verify ops, (receive_spec verify m op).1]

theorem recvRun_append (verify : Sig → Addr → VBody → Bool) : ∀ (ops ops' : List (RecvOp Sig)) (m : Mgr Sig),
    recvRun verify m (ops ++ ops') = ((recvRun verify (recvRun verify m ops).1 ops').1,
      (recvRun verify m ops).2 ++ (recvRun verify (recvRun verify m ops).1 ops').2)
  | [], ops', m => by simp [recvRun]
  | op :: ops, ops', m => by
    simp only [List.cons_append, recvRun_cons, recvRun_append verify ops ops']

theorem recvRun_length (verify : Sig → Addr → VBody → Bool) : ∀ (ops : List (RecvOp Sig)) (m : Mgr Sig),
    (recvRun verify m ops).2.length = ops.length
  | [], _ => rfl
  | op :: ops, m => by simp [recvRun_cons, recvRun_length verify ops]

theorem totalCredited_append (x : Addr) : ∀ (ops ops' : List (RecvOp Sig)) (outs outs' : List RecvOut), ops.length = outs.length →
    totalCredited x (ops ++ ops') (outs ++ outs') = totalCredited x ops outs + totalCredited x ops' outs'
  | [], _, [], _, _ => by simp [totalCredited]
  | op :: ops, ops', o :: outs, outs', h => by
    simp only [List.length_cons, Nat.add_right_cancel_iff] at h
    have := totalCredited_append x ops ops' outs outs' h
    rw [List.cons_append, List.cons_append, totalCredited_cons, this, totalCredited_cons x op ops]
    omega

/-- The amount on record for a lane never falls. -/
theorem recvRun_mono (verify : Sig → Addr → VBody → Bool) (x : Addr) (i : Nat) (ops : List (RecvOp Sig)) (m : Mgr Sig) :
    ((inC m x).lane i).redeemed ≤ ((inC (recvRun verify m ops).1 x).lane i).redeemed := by
  obtain ⟨_, h2, _, h4⟩ := recvRun_spec verify x i ops m
  have := sum_nonneg (as := credits x i ops (recvRun verify m ops).2) (fun a ha => Int.le_of_lt (h4 a ha))
  omega

/-- A voucher accepted in a history is on record at its end. -/
theorem recvRun_accepted (verify : Sig → Addr → VBody → Bool) : ∀ (ops : List (RecvOp Sig)) (m : Mgr Sig) (k : Nat) (op : RecvOp Sig)
    (v : Voucher Sig) (a : Int), ops[k]? = some op → op.voucher = some v → (recvRun verify m ops).2[k]? = some (.credited a) →
    v.body.amount ≤ ((inC (recvRun verify m ops).1 op.channel).lane v.body.lane).redeemed
  | [], _, _, _, _, _, h, _, _ => by simp at h
  | o :: ops, m, 0, op, v, a, h, hv, hc => by
    simp only [List.getElem?_cons_zero, Option.some.injEq] at h
    subst h
    rw [recvRun_cons] at hc
    simp only [List.getElem?_cons_zero, Option.some.injEq] at hc
    rw [recvRun_cons]
    refine Int.le_trans ?_ (recvRun_mono verify _ _ ops _)
    obtain ⟨_, ⟨a, v', ch, h1, h2, h3, h4, h5, h6, h7, _, _, h8, h9⟩ | ⟨h1, h2, h3⟩⟩ := receive_spec verify m o
    · rw [hv] at h2
      simp only [Option.some.injEq] at h2
      subst h2
      rw [h9]
      simp
    · exact absurd hc (h1 a)
  | o :: ops, m, k + 1, op, v, a, h, hv, hc => by
    rw [recvRun_cons] at hc ⊢
    simp only [List.getElem?_cons_succ] at h hc
    exact recvRun_accepted verify ops _ k op v a h hv hc

end FcRetrieval.Payment
