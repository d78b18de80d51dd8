import Verif.Lemmas.PaymentConc
/-! Helper lemmas for the payment properties. -/

set_option linter.unusedSimpArgs false

namespace FcRetrieval.Payment

variable {Sig : Type}

theorem onRecord_eq (m : Mgr Sig) (ch : Addr) (i : Nat) :
    onRecord m ch i = (((inC m ch).lane i).redeemed, ((inC m ch).lane i).nonce, (inC m ch).redeemed) := by
  unfold onRecord inC
  cases m.inbound ch with
  | none => rfl
  | some c =>
    simp only [Option.getD_some]
    unfold Chan.lane
    cases c.lanes i <;> rfl

/-- The three outcomes of `Pay`. -/
theorem pay_cases (sign : VBody → Option Sig) (m : Mgr Sig) (r : Addr) (lane : Nat) (a : Int) :
    (pay sign m r lane a = (m, .needTopup) ∧ (m.outbound r = none ∨ (outC m r).balance < (outC m r).redeemed + a)) ∨
    (∃ m', pay sign m r lane a = (m', .error) ∧ ∃ b, sign b = none) ∨
    (∃ c m' v, m.outbound r = some c ∧ pay sign m r lane a = (m', .paid c.addr v) ∧ c.redeemed + a ≤ c.balance ∧ v.body.lane = lane ∧
      v.body.channelAddr = c.addr ∧ sign v.body = some v.sig ∧ m' = { m with outbound := put m.outbound r { c with redeemed := c.redeemed + a, lanes := put c.lanes lane ⟨((c.lane lane).nonce + 1) % 2 ^ 64, (c.lane lane).redeemed + a, (c.lane lane).vouchers ++ [v]⟩ } }) := by
  unfold pay
  cases hc : m.outbound r with
  | none => simp
  | some c =>
    have h0 : outC m r = c := by simp [outC, hc]
    simp only
    by_cases hb : c.balance < c.redeemed + a
    · rw [if_pos hb]; rw [h0]; simp [hb]
    rw [if_neg hb]
    cases hs : sign ⟨c.addr, lane, (c.lane lane).nonce, (c.lane lane).redeemed + a⟩ with
    | none => exact Or.inr (Or.inl ⟨_, rfl, _, hs⟩)
    | some sig => exact Or.inr (Or.inr ⟨c, _, _, rfl, rfl, by omega, rfl, rfl, hs, rfl⟩)

theorem payRun_cons (sign : VBody → Option Sig) (m : Mgr Sig) (op : PayOp) (ops : List PayOp) :
    payRun sign m (op :: ops) = ((payRun sign (payStep sign m op).1 ops).1,
      (payStep sign m op).2 :: (payRun sign (payStep sign m op).1 ops).2) := rfl

/-- Vouchers are what they say. -/
theorem payRun_bodies (sign : VBody → Option Sig) : ∀ (ops : List PayOp) (m : Mgr Sig) {r : Addr} {lane : Nat} {a : Int} {ch : Addr}
    {v : Voucher Sig}, .paid r lane a ch v ∈ (payRun sign m ops).2 →
    v.body.lane = lane ∧ v.body.channelAddr = ch ∧ sign v.body = some v.sig
  | [], m, r, lane, a, ch, v => by simp [payRun]
  | op :: ops, m, r, lane, a, ch, v => by
    intro h
    rw [payRun_cons] at h
    simp only [List.mem_cons] at h
    rcases h with h | h
    · cases op with
      | topup r' a' chn =>
        cases chn with
        | failed => simp [payStep, topup] at h
        | executed addr => simp only [payStep, topup] at h; cases hr' : m.outbound r' <;> simp [hr'] at h
      | pay r' lane' a' =>
        simp only [payStep] at h
        rcases pay_cases sign m r' lane' a' with ⟨hp, _⟩ | ⟨m', hp, _⟩ | ⟨c, m', v', _, hp, _, h1, h2, h3, _⟩
        · simp [hp] at h
        · simp [hp] at h
        · simp only [hp, PayEvent.paid.injEq] at h
          obtain ⟨_, rfl, _, rfl, rfl⟩ := h
          exact ⟨h1, h2, h3⟩
    · exact payRun_bodies sign ops _ h

theorem payStep_channel (sign : VBody → Option Sig) (m : Mgr Sig) (op : PayOp) (r : Addr) {c : Chan Sig} (hc : m.outbound r = some c) :
    ∃ c', (payStep sign m op).1.outbound r = some c' ∧ c'.addr = c.addr := by
  cases op with
  | topup r' a' chn =>
    cases chn with
    | failed => exact ⟨c, hc, rfl⟩
    | executed addr =>
      simp only [payStep, topup]
      cases hr' : m.outbound r' with
      | none =>
        have : r ≠ r' := by intro h; rw [h, hr'] at hc; simp at hc
        exact ⟨c, by simp [topupCreate, put_other _ _ this, hc], rfl⟩
      | some c' =>
        by_cases h : r = r'
        · subst h
          rw [hr'] at hc
          simp only [Option.some.injEq] at hc
          subst hc
          exact ⟨{ c' with balance := c'.balance + a' }, by simp [topupAdd], rfl⟩
        · exact ⟨c, by simp [topupAdd, put_other _ _ h, hc], rfl⟩
  | pay r' lane a =>
    simp only [payStep, pay]
    cases hr' : m.outbound r' with
    | none => exact ⟨c, hc, rfl⟩
    | some c' =>
      simp only
      by_cases hb : c'.balance < c'.redeemed + a
      · rw [if_pos hb]; exact ⟨c, hc, rfl⟩
      rw [if_neg hb]
      by_cases h : r = r'
      · subst h
        rw [hr'] at hc
        simp only [Option.some.injEq] at hc
        subst hc
        cases hs : sign ⟨c'.addr, lane, (c'.lane lane).nonce, (c'.lane lane).redeemed + a⟩ with
        | none => exact ⟨_, put_same _ _ _, rfl⟩
        | some sig => exact ⟨_, put_same _ _ _, rfl⟩
      · cases hs : sign ⟨c'.addr, lane, (c'.lane lane).nonce, (c'.lane lane).redeemed + a⟩ with
        | none => exact ⟨c, by simp [put_other _ _ h, hc], rfl⟩
        | some sig => exact ⟨c, by simp [put_other _ _ h, hc], rfl⟩

theorem payRun_channel_some (sign : VBody → Option Sig) : ∀ (ops : List PayOp) (m : Mgr Sig) {r : Addr} {c : Chan Sig},
    m.outbound r = some c → ∀ {lane a ch v}, .paid r lane a ch v ∈ (payRun sign m ops).2 → ch = c.addr
  | [], m, r, c, _, lane, a, ch, v => by simp [payRun]
  | op :: ops, m, r, c, hc, lane, a, ch, v => by
    intro h
    rw [payRun_cons] at h
    simp only [List.mem_cons] at h
    rcases h with h | h
    · cases op with
      | topup r' a' chn =>
        cases chn with
        | failed => simp [payStep, topup] at h
        | executed addr => simp only [payStep, topup] at h; cases hr' : m.outbound r' <;> simp [hr'] at h
      | pay r' lane' a' =>
        simp only [payStep] at h
        rcases pay_cases sign m r' lane' a' with ⟨hp, _⟩ | ⟨m', hp, _⟩ | ⟨c', m', v', hc', hp, _, h1, h2, h3, _⟩
        · simp [hp] at h
        · simp [hp] at h
        · simp only [hp, PayEvent.paid.injEq] at h
          obtain ⟨rfl, rfl, _, rfl, rfl⟩ := h
          rw [hc] at hc'
          simp only [Option.some.injEq] at hc'
          rw [hc']
    · obtain ⟨c', h1, h2⟩ := payStep_channel sign m op r hc
      rw [← h2]
      exact payRun_channel_some sign ops _ h1 h

theorem payRun_channel (sign : VBody → Option Sig) (r : Addr) : ∀ (ops : List PayOp) (m : Mgr Sig),
    ∃ ch0, ∀ {lane a ch v}, .paid r lane a ch v ∈ (payRun sign m ops).2 → ch = ch0
  | [], m => ⟨"", by simp [payRun]⟩
  | op :: ops, m => by
    cases hc : m.outbound r with
    | some c => exact ⟨c.addr, fun h => payRun_channel_some sign (op :: ops) m hc h⟩
    | none =>
      obtain ⟨ch0, ih⟩ := payRun_channel sign r ops (payStep sign m op).1
      refine ⟨ch0, ?_⟩
      intro lane a ch v h
      rw [payRun_cons] at h
      simp only [List.mem_cons] at h
      rcases h with h | h
      · cases op with
        | topup r' a' chn =>
          cases chn with
          | failed => simp [payStep, topup] at h
          | executed addr => simp only [payStep, topup] at h; cases hr' : m.outbound r' <;> simp [hr'] at h
        | pay r' lane' a' =>
          simp only [payStep] at h
          rcases pay_cases sign m r' lane' a' with ⟨hp, _⟩ | ⟨m', hp, _⟩ | ⟨c', m', v', hc', hp, _, h1, h2, h3, _⟩
          · simp [hp] at h
          · simp [hp] at h
          · simp only [hp, PayEvent.paid.injEq] at h
            obtain ⟨rfl, _⟩ := h
            rw [hc] at hc'
            simp at hc'
      · exact ih h

/-- A successful top-up leaves a channel. -/
theorem payRun_funded_channel (sign : VBody → Option Sig) (r : Addr) : ∀ (ops : List PayOp) (m : Mgr Sig),
    ((∃ c, m.outbound r = some c) ∨ ∃ a, .toppedUp r a ∈ (payRun sign m ops).2) → ∃ c, (payRun sign m ops).1.outbound r = some c
  | [], m, h => by
    rcases h with h | ⟨a, h⟩
    · exact h
    · simp [payRun] at h
  | op :: ops, m, h => by
    rw [payRun_cons] at h ⊢
    apply payRun_funded_channel sign r ops
    rcases h with ⟨c, h⟩ | ⟨a, h⟩
    · obtain ⟨c', h1, _⟩ := payStep_channel sign m op r h
      exact Or.inl ⟨c', h1⟩
    · simp only [List.mem_cons] at h
      rcases h with h | h
      · left
        cases op with
        | topup r' a' chn =>
          cases chn with
          | failed => simp [payStep, topup] at h
          | executed addr =>
            simp only [payStep, topup] at h ⊢
            cases hr' : m.outbound r' with
            | none =>
              simp only [hr', PayEvent.toppedUp.injEq] at h
              obtain ⟨rfl, _⟩ := h
              exact ⟨_, put_same _ _ _⟩
            | some c' =>
              simp only [hr', PayEvent.toppedUp.injEq] at h
              obtain ⟨rfl, _⟩ := h
              exact ⟨_, put_same _ _ _⟩
        | pay r' lane' a' =>
          simp only [payStep] at h
          rcases pay_cases sign m r' lane' a' with ⟨hp, _⟩ | ⟨m', hp, _⟩ | ⟨c', m', v', hc', hp, _⟩ <;> simp [hp] at h
      · exact Or.inr ⟨a, h⟩

theorem runningSums_max : ∀ (as : List Int) (s : Int), (∀ a ∈ as, 0 < a) →
    (∀ x ∈ runningSums s as, x ≤ s + as.sum) ∧ (runningSums s as ≠ [] → s + as.sum ∈ runningSums s as)
  | [], s, _ => by simp [runningSums]
  | a :: as, s, h => by
    obtain ⟨h1, h2⟩ := runningSums_max as (s + a) (fun b hb => h b (by simp [hb]))
    have hn := sum_nonneg (as := as) (fun b hb => Int.le_of_lt (h b (by simp [hb])))
    simp only [runningSums, List.sum_cons]
    constructor
    · intro x hx
      rcases List.mem_cons.1 hx with rfl | hx
      · omega
      · have := h1 x hx; omega
    · intro _
      cases as with
      | nil => simp
      | cons b bs =>
        have := h2 (by simp [runningSums])
        rw [← Int.add_assoc]
        exact List.mem_cons_of_mem _ this

/-- The lowest acceptable nonce of a lane never falls while nonces stay below the wrap-around. -/
theorem recvRun_nonce_mono (verify : Sig → Addr → VBody → Bool) (x : Addr) (i : Nat) : ∀ (ops : List (RecvOp Sig)) (m : Mgr Sig),
    (∀ op ∈ ops, ∀ v, op.voucher = some v → v.body.nonce + 1 < 2 ^ 64) →
    ((inC m x).lane i).nonce ≤ ((inC (recvRun verify m ops).1 x).lane i).nonce
  | [], _, _ => Nat.le_refl _
  | op :: ops, m, hops => by
    rw [recvRun_cons]
    refine Nat.le_trans ?_ (recvRun_nonce_mono verify x i ops _ (fun o ho => hops o (by simp [ho])))
    obtain ⟨_, ⟨a, v, ch, h1, h2, h3, h4, h5, h6, h7, _, _, h8, h9⟩ | ⟨h1, h2, h3⟩⟩ := receive_spec verify m op
    · rw [h9 x i]
      split
      · rename_i hc
        obtain ⟨rfl, rfl⟩ := hc
        have := hops op (by simp) v h2
        simp only [Nat.mod_eq_of_lt this]
        omega
      · exact Nat.le_refl _
    · rw [h3]; exact Nat.le_refl _

theorem recvRun_nonce_accepted (verify : Sig → Addr → VBody → Bool) : ∀ (ops : List (RecvOp Sig)) (m : Mgr Sig) (k : Nat) (op : RecvOp Sig)
    (v : Voucher Sig) (a : Int), (∀ op ∈ ops, ∀ v, op.voucher = some v → v.body.nonce + 1 < 2 ^ 64) →
    ops[k]? = some op → op.voucher = some v → (recvRun verify m ops).2[k]? = some (.credited a) →
    v.body.nonce < ((inC (recvRun verify m ops).1 op.channel).lane v.body.lane).nonce
  | [], _, _, _, _, _, _, h, _, _ => by simp at h
  | o :: ops, m, 0, op, v, a, hops, h, hv, hc => by
    simp only [List.getElem?_cons_zero, Option.some.injEq] at h
    subst h
    rw [recvRun_cons] at hc
    simp only [List.getElem?_cons_zero, Option.some.injEq] at hc
    rw [recvRun_cons]
    refine Nat.lt_of_lt_of_le ?_ (recvRun_nonce_mono verify _ _ ops _ (fun o ho => hops o (by simp [ho])))
    obtain ⟨_, ⟨a, v', ch, h1, h2, h3, h4, h5, h6, h7, _, _, h8, h9⟩ | ⟨h1, h2, h3⟩⟩ := receive_spec verify m o
    · rw [hv] at h2
      simp only [Option.some.injEq] at h2
      subst h2
      rw [h9]
      have := hops o (by simp) v hv
      simp only [and_self, if_true]
      rw [Nat.mod_eq_of_lt this]
      omega
    · exact absurd hc (h1 a)
  | o :: ops, m, k + 1, op, v, a, hops, h, hv, hc => by
    rw [recvRun_cons] at hc ⊢
    simp only [List.getElem?_cons_succ] at h hc
    exact recvRun_nonce_accepted verify ops _ k op v a (fun o ho => hops o (by simp [ho])) h hv hc

/-! ## concurrent calls -/

/-- A call of `Receive` whose voucher decodes and whose chain query succeeds. -/
abbrev RecvCall (Sig : Type) := Addr × Voucher Sig × ChainView

def recvOpOf (c : RecvCall Sig) : RecvOp Sig := ⟨c.1, some c.2.1, some c.2.2⟩

theorem receive_keeps_entry (verify : Sig → Addr → VBody → Bool) (m : Mgr Sig) (ch : Addr) (v : Option (Voucher Sig)) (cv : Option ChainView)
    (x : Addr) (h : m.inbound x ≠ none) : (receive verify m ch v cv).1.inbound x ≠ none := by
  unfold receive
  cases v with
  | none => exact h
  | some v =>
    cases cv with
    | none => exact h
    | some cv =>
      simp only
      cases hc : m.inbound ch with
      | none =>
        simp only [recvCreate, put]
        split <;> simp [h]
      | some c =>
        simp only [recvFound]
        split
        · exact h
        · simp only [put]
          split <;> simp [h]

/-- The calls of a valid order, as a history of `Receive`. -/
theorem serially_recv (verify : Sig → Addr → VBody → Bool) (calls : List (RecvCall Sig)) : ∀ (order : List Nat) (m : Mgr Sig),
    (∀ i ∈ order, i < calls.length) → ∃ ops : List (RecvCall Sig), ops.length = order.length ∧ (∀ k : Nat, ops[k]? = (order[k]?).bind (fun j : Nat => calls[j]?)) ∧
      (serially (fun m c => receive verify m c.1 (some c.2.1) (some c.2.2)) calls m order).1 = (recvRun verify m (ops.map recvOpOf)).1 ∧
      (serially (fun m c => receive verify m c.1 (some c.2.1) (some c.2.2)) calls m order).2 =
        order.zip (recvRun verify m (ops.map recvOpOf)).2
  | [], m, _ => ⟨[], by simp [serially, recvRun]⟩
  | i :: is, m, h => by
    have hi : i < calls.length := h i (by simp)
    have hc : calls[i]? = some calls[i] := by simp [hi]
    obtain ⟨ops, h1, h2, h3, h4⟩ := serially_recv verify calls is (receive verify m calls[i].1 (some calls[i].2.1) (some calls[i].2.2)).1
      (fun j hj => h j (by simp [hj]))
    refine ⟨calls[i] :: ops, by simp [h1], ?_, ?_, ?_⟩
    · intro k
      cases k with
      | zero => simp [hc]
      | succ k => simpa using h2 k
    · simp only [serially, hc, List.map_cons, recvRun_cons, recvOpOf]
      exact h3
    · simp only [serially, hc, List.map_cons, recvRun_cons, recvOpOf, List.zip_cons_cons]
      rw [h4]

theorem replay_refused (verify : Sig → Addr → VBody → Bool) (m : Mgr Sig) (op : RecvOp Sig) (v : Voucher Sig) (hv : op.voucher = some v)
    (h : v.body.amount ≤ ((inC m op.channel).lane v.body.lane).redeemed) :
    (∀ a, (receive verify m op.channel op.voucher op.chain).2 ≠ .credited a) ∧
    ∀ x i, onRecord (receive verify m op.channel op.voucher op.chain).1 x i = onRecord m x i := by
  obtain ⟨_, ⟨a, v', ch, h1, h2, h3, h4, h5, h6, h7, _, _, h8, h9⟩ | ⟨h1, h2, h3⟩⟩ := receive_spec verify m op
  · rw [hv] at h2
    simp only [Option.some.injEq] at h2
    subst h2
    omega
  · refine ⟨h1, ?_⟩
    intro x i
    rw [onRecord_eq, onRecord_eq, h2, h3]

/-- In one history no voucher is credited twice on a channel. -/
theorem once_in_run (verify : Sig → Addr → VBody → Bool) (m : Mgr Sig) (ops : List (RecvCall Sig)) {p q : Nat} (hpq : p < q)
    {ch : Addr} {v : Voucher Sig} {cv cv' : ChainView} {a b : Int} (hp : ops[p]? = some (ch, v, cv)) (hq : ops[q]? = some (ch, v, cv'))
    (ha : (recvRun verify m (ops.map recvOpOf)).2[p]? = some (.credited a))
    (hb : (recvRun verify m (ops.map recvOpOf)).2[q]? = some (.credited b)) : False := by
  have hql : q < ops.length := by
    rcases Nat.lt_or_ge q ops.length with h | h
    · exact h
    · simp [List.getElem?_eq_none h] at hq
  have hsplit : ops = ops.take q ++ (ch, v, cv') :: ops.drop (q + 1) := by
    have h1 : ops.drop q = (ch, v, cv') :: ops.drop (q + 1) := by
      rw [List.drop_eq_getElem_cons hql]
      congr 1
      rw [List.getElem?_eq_getElem hql] at hq
      simpa using hq
    rw [← h1, List.take_append_drop]
  have hlen : (ops.take q).length = q := by simp; omega
  rw [hsplit, List.map_append, recvRun_append] at ha hb
  have hl2 : (recvRun verify m ((ops.take q).map recvOpOf)).2.length = q := by rw [recvRun_length]; simpa using hlen
  simp only at ha hb
  rw [List.getElem?_append_left (by omega)] at ha
  rw [List.getElem?_append_right (by omega), hl2, Nat.sub_self, List.map_cons, recvRun_cons] at hb
  simp only [List.getElem?_cons_zero, Option.some.injEq] at hb
  have hacc := recvRun_accepted verify _ m p (recvOpOf (ch, v, cv)) v a
    (by rw [List.getElem?_map, List.getElem?_take]; simp [hpq, hp]) rfl ha
  exact (replay_refused verify _ (recvOpOf (ch, v, cv')) v rfl hacc).1 b hb

/-! ### top-ups -/

/-- A call of `Topup` whose transaction is executed: recipient, amount, address of the channel if one is created. -/
abbrev TopupCall := Addr × Int × Addr

/-- Amount of a finished call. -/
def finished (r : Addr) : TopupCall × Pc Unit → Int
  | (c, .done _) => if c.1 = r then c.2.1 else 0
  | _ => 0

theorem sum_set : ∀ (l : List Int) (i : Nat) (x : Int), i < l.length → (l.set i x).sum = l.sum - l[i]?.getD 0 + x
  | [], _, _, h => by simp at h
  | a :: l, 0, x, _ => by simp; omega
  | a :: l, i + 1, x, h => by
    simp only [List.length_cons, Nat.add_lt_add_iff_right] at h
    simp only [List.set_cons_succ, List.sum_cons, sum_set l i x h, List.getElem?_cons_succ]
    omega

theorem topup_sched {m0 : Mgr Sig} {calls : List TopupCall} (hex : ∀ c ∈ calls, m0.outbound c.1 ≠ none) (r : Addr) (sched : List Nat) :
    let s := sysRun (fun m (c : TopupCall) => topupThreadStep m c.1 c.2.1 c.2.2) ⟨m0, calls.map (·, .start)⟩ sched
    (∀ x, m0.outbound x ≠ none → s.state.outbound x ≠ none) ∧
    s.threads.map (·.1) = calls ∧ (∀ t ∈ s.threads, (t.2 = .start) ∨ (t.2 = .done ())) ∧
    (∀ i, i < calls.length → i ∈ sched → ∃ c, s.threads[i]? = some (c, .done ())) ∧
    (outC s.state r).balance = (outC m0 r).balance + (s.threads.map (finished r)).sum := by
  induction sched using snocInd with
  | nil =>
    simp only [sysRun, List.foldl_nil]
    refine ⟨fun _ h => h, by simp [Function.comp_def], ?_, by simp, ?_⟩
    · intro t ht
      simp only [List.mem_map] at ht
      obtain ⟨c, _, rfl⟩ := ht
      exact Or.inl rfl
    · have : ∀ l : List TopupCall, ((l.map fun x => (x, (Pc.start : Pc Unit))).map (finished r)).sum = 0 := by
        intro l
        induction l with
        | nil => simp
        | cons a l ih => rw [List.map_cons, List.map_cons, List.sum_cons, ih]; rfl
      rw [this]; simp
  | append sched i ih =>
    have hrun : sysRun (fun m (c : TopupCall) => topupThreadStep m c.1 c.2.1 c.2.2) ⟨m0, calls.map (·, .start)⟩ (sched ++ [i]) =
        sysStep (fun m (c : TopupCall) => topupThreadStep m c.1 c.2.1 c.2.2) (sysRun (fun m (c : TopupCall) => topupThreadStep m c.1 c.2.1 c.2.2) ⟨m0, calls.map (·, .start)⟩ sched) i := by
      simp [sysRun, List.foldl_append]
    rw [hrun]
    generalize sysRun (fun m (c : TopupCall) => topupThreadStep m c.1 c.2.1 c.2.2) ⟨m0, calls.map (·, .start)⟩ sched = s at *
    simp only at ih
    obtain ⟨ih1, ih2, ih3, ih4, ih5⟩ := ih
    have hlen : s.threads.length = calls.length := by rw [← ih2]; simp
    simp only
    cases hth : s.threads[i]? with
    | none =>
      simp only [sysStep, hth]
      refine ⟨ih1, ih2, ih3, ?_, ih5⟩
      intro j hj hjs
      simp only [List.mem_append, List.mem_singleton] at hjs
      rcases hjs with h | h
      · exact ih4 j hj h
      · subst h
        rw [List.getElem?_eq_none_iff] at hth
        omega
    | some t =>
      have hlt : i < s.threads.length := by
        rcases Nat.lt_or_ge i s.threads.length with h | h
        · exact h
        · simp [List.getElem?_eq_none h] at hth
      have htm : t ∈ s.threads := List.mem_of_getElem? hth
      obtain ⟨⟨r', a, addr⟩, pc⟩ := t
      have hcm : (r', a, addr) ∈ calls := by
        rw [← ih2]
        exact List.mem_map.2 ⟨_, htm, rfl⟩
      rcases ih3 _ htm with hpc | hpc
      · simp only at hpc
        subst hpc
        have hne := ih1 r' (hex _ hcm)
        cases hc : s.state.outbound r' with
        | none => exact absurd hc hne
        | some c =>
          simp only [sysStep, hth, topupThreadStep, hc]
          refine ⟨?_, ?_, ?_, ?_, ?_⟩
          · intro x hx
            simp only [topupAdd, put]
            split
            · simp
            · exact ih1 x hx
          · rw [List.map_set, ih2]
            apply List.ext_getElem?
            intro j
            rw [List.getElem?_set]
            split
            · rename_i hij
              subst hij
              have : calls[i]? = some (r', a, addr) := by rw [← ih2]; simp [hth]
              rw [this]; simp; omega
            · rfl
          · intro t ht
            rcases List.mem_or_eq_of_mem_set ht with h | h
            · exact ih3 t h
            · rw [h]; exact Or.inr rfl
          · intro j hj hjs
            simp only [List.mem_append, List.mem_singleton] at hjs
            by_cases hji : j = i
            · subst hji
              exact ⟨(r', a, addr), by simp [hlt]⟩
            · rcases hjs with h | h
              · rw [List.getElem?_set_ne (Ne.symm hji)]
                exact ih4 j hj h
              · exact absurd h hji
          · rw [List.map_set, sum_set _ _ _ (by simpa using hlt)]
            have hz : (List.map (finished r) s.threads)[i]?.getD 0 = 0 := by simp [hth, finished]
            rw [hz]
            by_cases hr : r' = r
            · subst hr
              have h1 : (outC (topupAdd s.state r' c a) r').balance = c.balance + a := by simp [outC, topupAdd]
              have h2 : outC s.state r' = c := by simp [outC, hc]
              rw [h2] at ih5
              rw [h1, ih5]
              simp [finished]
              omega
            · have h1 : outC (topupAdd s.state r' c a) r = outC s.state r := by
                simp [outC, topupAdd, put_other _ _ (Ne.symm hr)]
              rw [h1, ih5]
              simp [finished, hr]
      · simp only at hpc
        subst hpc
        have hs' : s.threads.set i ((r', a, addr), Pc.done ()) = s.threads := by
          apply List.ext_getElem?
          intro j
          rw [List.getElem?_set]
          split
          · rename_i hij; subst hij; rw [hth]
          · rfl
        simp only [sysStep, hth, topupThreadStep, hs']
        refine ⟨ih1, ih2, ih3, ?_, ih5⟩
        intro j hj hjs
        simp only [List.mem_append, List.mem_singleton] at hjs
        rcases hjs with h | h
        · exact ih4 j hj h
        · subst h; exact ⟨_, hth⟩

theorem finished_all (r : Addr) : ∀ (calls : List TopupCall) (ts : List (TopupCall × Pc Unit)), ts.map (·.1) = calls →
    (∀ t ∈ ts, t.2 = .done ()) → (ts.map (finished r)).sum = (calls.map fun c => if c.1 = r then c.2.1 else 0).sum
  | [], [], _, _ => by simp
  | c :: calls, t :: ts, h, hd => by
    simp only [List.map_cons, List.cons.injEq] at h
    have ht := hd t (by simp)
    obtain ⟨t1, t2⟩ := t
    simp only at h ht
    subst ht
    simp only [List.map_cons, List.sum_cons, finished_all r calls ts h.2 (fun u hu => hd u (by simp [hu])), finished, h.1]
  | [], _ :: _, h, _ => by simp at h
  | _ :: _, [], h, _ => by simp at h

end FcRetrieval.Payment
