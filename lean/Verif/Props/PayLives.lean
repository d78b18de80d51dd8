import Verif.Props.Payment
import Verif.Lemmas.PaymentConc
import Verif.Model.PayLives
import Verif.Spec.PayLives
/-!
# C183: a payer that is stopped and started again

The vocabulary is in `Spec/Payment.lean` and `Spec/PayLives.lean`.
-/

set_option linter.unusedSimpArgs false

namespace FcRetrieval.Payment

variable {Sig : Type}

/-- Calls of `Receive` on one channel see and change only what the manager knows of that channel. -/
theorem recvRun_local (verify : Sig → Addr → VBody → Bool) (ch : Addr) : ∀ (ops : List (RecvOp Sig)) (m m' : Mgr Sig), (∀ op ∈ ops, op.channel = ch) →
    m.address = m'.address → m.inbound ch = m'.inbound ch →
    (recvRun verify m ops).2 = (recvRun verify m' ops).2 ∧ (recvRun verify m ops).1.address = m.address ∧ ∀ x, x ≠ ch → (recvRun verify m ops).1.inbound x = m.inbound x
  | [], m, m', _, _, _ => ⟨rfl, rfl, fun _ _ => rfl⟩
  | op :: ops, m, m', hops, ha, hi => by
    have hc : op.channel = ch := hops op (by simp)
    have key : (receive verify m op.channel op.voucher op.chain).2 = (receive verify m' op.channel op.voucher op.chain).2 ∧
        (receive verify m op.channel op.voucher op.chain).1.address = m.address ∧ (receive verify m' op.channel op.voucher op.chain).1.address = m'.address ∧
        (receive verify m op.channel op.voucher op.chain).1.inbound ch = (receive verify m' op.channel op.voucher op.chain).1.inbound ch ∧
        ∀ x, x ≠ ch → (receive verify m op.channel op.voucher op.chain).1.inbound x = m.inbound x := by
      rw [hc]
      unfold receive
      cases op.voucher with
      | none => exact ⟨rfl, rfl, rfl, hi, fun _ _ => rfl⟩
      | some v =>
        cases op.chain with
        | none => exact ⟨rfl, rfl, rfl, hi, fun _ _ => rfl⟩
        | some cv =>
          dsimp only
          rw [← hi]
          cases hmi : m.inbound ch with
          | none =>
            simp only [recvCreate, ← ha, put, if_true, true_and]
            intro x hx; rw [if_neg hx]
          | some c =>
            simp only [recvFound]
            split
            · exact ⟨rfl, rfl, rfl, hi, fun _ _ => rfl⟩
            · simp only [← ha, put, if_true, true_and]
              intro x hx; rw [if_neg hx]
    obtain ⟨k1, k2, k3, k4, k5⟩ := key
    obtain ⟨i1, i2, i3⟩ := recvRun_local verify ch ops (receive verify m op.channel op.voucher op.chain).1 (receive verify m' op.channel op.voucher op.chain).1
      (fun o ho => hops o (by simp [ho])) (by rw [k2, k3, ha]) k4
    refine ⟨?_, i2.trans k2, fun x hx => (i3 x hx).trans (k5 x hx)⟩
    rw [recvRun_cons, recvRun_cons]
    show _ :: _ = _ :: _
    exact List.cons_eq_cons.2 ⟨k1, i1⟩

/-- A voucher is on a channel that the manager knew for the recipient, or that was opened. -/
theorem payRun_opened (sign : VBody → Option Sig) : ∀ (ops : List PayOp) (m : Mgr Sig) {r : Addr} {lane : Nat} {a : Int} {ch : Addr} {v : Voucher Sig},
    .paid r lane a ch v ∈ (payRun sign m ops).2 → (∃ c, m.outbound r = some c ∧ c.addr = ch) ∨ Opens ops r ch
  | [], m, r, lane, a, ch, v => by simp [payRun]
  | op :: ops, m, r, lane, a, ch, v => by
    intro h
    cases hm : m.outbound r with
    | some c => exact .inl ⟨c, rfl, (payRun_channel_some sign (op :: ops) m hm h).symm⟩
    | none =>
      right
      rw [payRun_cons] at h
      simp only [List.mem_cons] at h
      rcases h with h | h
      · cases op with
        | topup r' a' chn =>
          cases chn with
          | failed => simp [payStep, topup] at h
          | executed addr => simp only [payStep, topup] at h; cases hr' : m.outbound r' <;> simp [hr'] at h
        | pay r' lane' a' =>
          simp only [payStep] at h
          rcases pay_cases sign m r' lane' a' with ⟨hp, _⟩ | ⟨m', hp, _⟩ | ⟨c', m', v', hc', hp, _, h1, h2, h3, _⟩
          · simp [hp] at h
          · simp [hp] at h
          · simp only [hp, PayEvent.paid.injEq] at h
            obtain ⟨rfl, _⟩ := h
            rw [hm] at hc'; cases hc'
      · rcases payRun_opened sign ops _ h with ⟨c, h1, h2⟩ | ⟨a', h1⟩
        · cases op with
          | topup r' a' chn =>
            cases chn with
            | failed => simp only [payStep, topup] at h1; rw [hm] at h1; cases h1
            | executed addr =>
              by_cases e : r' = r
              · subst e
                simp only [payStep, topup, hm, topupCreate, put, if_true, Option.some.injEq] at h1
                subst h1
                simp only at h2
                subst h2
                exact ⟨a', by simp⟩
              · exfalso
                have e' : ¬ r = r' := fun x => e x.symm
                cases hr' : m.outbound r' <;> simp [payStep, topup, hr', topupCreate, topupAdd, put, e', hm] at h1
          | pay r' lane' a' =>
            exfalso
            by_cases e : r' = r
            · subst e
              simp [payStep, pay, hm] at h1
            · have e' : ¬ r = r' := fun x => e x.symm
              simp only [payStep] at h1
              rcases pay_cases sign m r' lane' a' with ⟨hp, _⟩ | ⟨m', hp, _⟩ | ⟨c', m', v', hc', hp, _⟩
              · rw [hp] at h1; simp [hm] at h1
              all_goals
                have : (pay sign m r' lane' a').1.outbound r = m.outbound r := by
                  unfold pay
                  cases m.outbound r' with
                  | none => rfl
                  | some c'' =>
                    dsimp only
                    split
                    · rfl
                    · split <;> simp [put, e']
                rw [hp] at h1 this
                simp only at h1 this
                rw [this, hm] at h1; cases h1
        · exact ⟨a', by simp [h1]⟩

/-- The calls of `Receive` are on the channels of the vouchers. -/
theorem presented_channel (r payer payee : Addr) : ∀ (es : List (PayEvent Sig)) (bal : Int), ∀ op ∈ presented r payer payee bal es, ∃ lane a v, .paid r lane a op.channel v ∈ es
  | [], bal, op, h => by simp [presented] at h
  | .toppedUp r' a :: es, bal, op, h => by
    obtain ⟨l, a, v, h⟩ := presented_channel r payer payee es _ op h
    exact ⟨l, a, v, by simp [h]⟩
  | .refused :: es, bal, op, h => by
    obtain ⟨l, a, v, h⟩ := presented_channel r payer payee es _ op h
    exact ⟨l, a, v, by simp [h]⟩
  | .paid r' lane a ch v :: es, bal, op, h => by
    unfold presented at h
    split at h
    · rename_i e
      subst e
      rcases List.mem_cons.1 h with h | h
      · subst h; exact ⟨lane, a, v, by simp⟩
      · obtain ⟨l, a, v, h⟩ := presented_channel r' payer payee es _ op h
        exact ⟨l, a, v, by simp [h]⟩
    · obtain ⟨l, a, v, h⟩ := presented_channel r payer payee es _ op h
      exact ⟨l, a, v, by simp [h]⟩

/-- One life, at a payee that has not seen its channels. -/
theorem life_credited (sign : VBody → Option Sig) (verify : Sig → Addr → VBody → Bool) (payer : Addr) (hsv : ∀ b s, sign b = some s → verify s payer b = true)
    (ops : List PayOp) (hops : ∀ op ∈ ops, Positive op) (r : Addr) (m : Mgr Sig) (hm : ∀ ch, Opens ops r ch → m.inbound ch = none) :
    let es := (payRun sign (newMgr payer) ops).2
    (recvRun verify m (presented r payer m.address 0 es)).2 = (amountsTo r es).map .credited ∧ (recvRun verify m (presented r payer m.address 0 es)).1.address = m.address ∧
      ∀ ch, ¬ Opens ops r ch → (recvRun verify m (presented r payer m.address 0 es)).1.inbound ch = m.inbound ch := by
  intro es
  have h0 := C38_payee_credits_what_was_paid sign verify payer m.address hsv ops hops r
  obtain ⟨ch0, hch⟩ := payRun_channel sign r ops (newMgr payer)
  have hopen : ∀ op ∈ presented r payer m.address 0 es, op.channel = ch0 ∧ Opens ops r op.channel := by
    intro op hop
    obtain ⟨l, a, v, h⟩ := presented_channel r payer m.address es 0 op hop
    refine ⟨hch h, ?_⟩
    rcases payRun_opened sign ops _ h with ⟨c, h1, -⟩ | h1
    · cases h1
    · exact h1
  cases hp : presented r payer m.address 0 es with
  | nil =>
    simp only at h0
    rw [show presented r payer m.address 0 (payRun sign (newMgr payer) ops).2 = [] from hp] at h0
    exact ⟨h0, rfl, fun _ _ => rfl⟩
  | cons op rest =>
    have hO : Opens ops r ch0 := by
      have := hopen op (by rw [hp]; simp)
      exact this.1 ▸ this.2
    obtain ⟨l1, l2, l3⟩ := recvRun_local verify ch0 (presented r payer m.address 0 es) m (newMgr m.address) (fun o ho => (hopen o ho).1) rfl (hm _ hO)
    rw [← hp]
    refine ⟨l1.trans h0, l2, fun ch hn => l3 ch (fun e => hn (e ▸ hO))⟩

theorem lives_credited (sign : VBody → Option Sig) (verify : Sig → Addr → VBody → Bool) (payer : Addr) (hsv : ∀ b s, sign b = some s → verify s payer b = true) (r : Addr) :
    ∀ (lives : List (List PayOp)) (m : Mgr Sig), (∀ ops ∈ lives, ∀ op ∈ ops, Positive op) → NewChannels r lives → (∀ ops ∈ lives, ∀ ch, Opens ops r ch → m.inbound ch = none) →
      (recvRun verify m ((payLives sign payer lives).flatMap (presented r payer m.address 0))).2 = ((payLives sign payer lives).flatMap (amountsTo r)).map .credited
  | [], m, _, _, _ => rfl
  | ops :: lives, m, hpos, hnew, hm => by
    obtain ⟨h1, h2, h3⟩ := life_credited sign verify payer hsv ops (hpos ops (by simp)) r m (hm ops (by simp))
    obtain ⟨n1, n2⟩ := List.pairwise_cons.1 hnew
    have ih := lives_credited sign verify payer hsv r lives (recvRun verify m (presented r payer m.address 0 (payRun sign (newMgr payer) ops).2)).1
      (fun o ho => hpos o (by simp [ho])) n2 (fun o ho ch hc => by
        rw [h3 ch (fun h => n1 o ho ch h hc)]
        exact hm o (by simp [ho]) ch hc)
    simp only [payLives, List.map_cons, List.flatMap_cons, List.map_append] at ih ⊢
    rw [recvRun_append]
    simp only
    rw [h1]
    rw [h2] at ih
    rw [ih]

/-- **C183**: a payer is stopped and started again, any number of times, and what it is asked for moves positive amounts.  The chain gives new channels new addresses.
A payee that is shown the vouchers of all these lives, as they are issued, credits each of them, and with exactly what was paid. -/
theorem C183_credited (sign : VBody → Option Sig) (verify : Sig → Addr → VBody → Bool) (payer payee : Addr) (hsv : ∀ b s, sign b = some s → verify s payer b = true)
    (lives : List (List PayOp)) (hpos : ∀ ops ∈ lives, ∀ op ∈ ops, Positive op) (r : Addr) (hnew : NewChannels r lives) :
    (recvRun verify (newMgr payee) ((payLives sign payer lives).flatMap (presented r payer payee 0))).2 = ((payLives sign payer lives).flatMap (amountsTo r)).map .credited :=
  lives_credited sign verify payer hsv r lives (newMgr payee) hpos hnew (fun _ _ _ _ => rfl)

/-- **C183 is false: the rest of a channel**: a payer has topped up for a recipient and paid less than that.  It could go on to pay the rest, on channel `ch`.  Stopped and
started again, it pays the recipient nothing, of whatever amount, until it has topped up again; and whatever it does in this life, it issues no voucher on `ch`. -/
theorem C183_stranded_refuted (sign : VBody → Option Sig) (hsign : ∀ b, sign b ≠ none) (me : Addr) (before : List PayOp) (r : Addr) (lane : Nat) (amount : Int)
    (hch : ∃ a, .toppedUp r a ∈ (payRun sign (newMgr me) before).2)
    (hleft : totalPaid r (payRun sign (newMgr me) before).2 + amount ≤ funded r (payRun sign (newMgr me) before).2) :
    ∃ ch v, (pay sign (payRun sign (newMgr me) before).1 r lane amount).2 = .paid ch v ∧
      ∀ now : List PayOp, NewChannels r [before, now] →
        ((∀ ch', ¬ Opens now r ch') → ∀ lane' amount', (pay sign (payRun sign (newMgr me) now).1 r lane' amount').2 = .needTopup) ∧
        ∀ lane' a' ch' v', .paid r lane' a' ch' v' ∈ (payRun sign (newMgr me) now).2 → ch' ≠ ch := by
  obtain ⟨ch, v, h1, h2, h3⟩ := C35_pay_issues_partial sign hsign me before r lane amount hch hleft
  refine ⟨ch, v, h1, fun now hnew => ⟨fun hno lane' amount' => ?_, fun lane' a' ch' v' hp => ?_⟩⟩
  · cases hp : (pay sign (payRun sign (newMgr me) now).1 r lane' amount').2 with
    | needTopup => rfl
    | _ =>
      exfalso
      have hout : (payRun sign (newMgr me) now).1.outbound r = none := by
        have : ∀ (ops : List PayOp) (m : Mgr Sig), m.outbound r = none → (∀ ch', ¬ Opens ops r ch') → (payRun sign m ops).1.outbound r = none := by
          intro ops
          induction ops with
          | nil => intro m h _; exact h
          | cons op ops ih =>
            intro m h hn
            rw [payRun_cons]
            refine ih _ ?_ (fun ch' ⟨a, ha⟩ => hn ch' ⟨a, by simp [ha]⟩)
            cases op with
            | topup r' a' chn =>
              cases chn with
              | failed => exact h
              | executed addr =>
                have e' : ¬ r = r' := fun e => hn addr ⟨a', by simp [e]⟩
                cases hr' : m.outbound r' <;> simp [payStep, topup, hr', topupCreate, topupAdd, put, e', h]
            | pay r' lane' a' =>
              have : (pay sign m r' lane' a').1.outbound r = none := by
                unfold pay
                cases hr' : m.outbound r' with
                | none => exact h
                | some c =>
                  have e' : ¬ r = r' := fun e => by rw [e, hr'] at h; cases h
                  dsimp only
                  split
                  · exact h
                  · split <;> simp [put, e', h]
              simp only [payStep]
              split <;> rename_i hq <;> rw [hq] at this <;> exact this
        exact this now _ rfl hno
      rw [show pay sign (payRun sign (newMgr me) now).1 r lane' amount' = ((payRun sign (newMgr me) now).1, .needTopup) by unfold pay; rw [hout]] at hp
      cases hp
  · intro e
    subst e
    have hnow : Opens now r ch' := by
      rcases payRun_opened sign now _ hp with ⟨c, g, -⟩ | g
      · cases g
      · exact g
    have hbefore : Opens before r ch' := by
      have hmem : .paid r lane amount ch' v ∈ (payRun sign (newMgr me) (before ++ [.pay r lane amount])).2 := by
        have happ : ∀ (as bs : List PayOp) (m : Mgr Sig), (payRun sign m (as ++ bs)).2 = (payRun sign m as).2 ++ (payRun sign (payRun sign m as).1 bs).2 := by
          intro as
          induction as with
          | nil => intro bs m; rfl
          | cons a as ih => intro bs m; rw [List.cons_append, payRun_cons, payRun_cons]; simp only [ih, List.cons_append]
        rw [happ]
        refine List.mem_append_right _ ?_
        rw [payRun_cons]
        simp only [payStep]
        cases hq : pay sign (payRun sign (newMgr me) before).1 r lane amount with
        | mk m' out =>
          rw [hq] at h1
          simp only at h1
          subst h1
          simp
      rcases payRun_opened sign _ _ hmem with ⟨c, g, -⟩ | ⟨a, g⟩
      · cases g
      · simp only [List.mem_append, List.mem_singleton, reduceCtorEq, or_false] at g
        exact ⟨a, g⟩
    exact (List.pairwise_cons.1 hnew).1 now (by simp) ch' hbefore hnow

/-- A payer that tops up 101 for bob, pays 90, is started again, has to top up again, and pays again. -/
example : (∀ b s, toySign "me" b = some s → toyVerify s "me" b = true) ∧ NewChannels "bob" [exampleOps, [.pay "bob" 0 5, .topup "bob" 20 (.executed "ch3"), .pay "bob" 0 15]] ∧
    (recvRun toyVerify (newMgr "bob") ((payLives (toySign "me") "me" [exampleOps, [.pay "bob" 0 5, .topup "bob" 20 (.executed "ch3"), .pay "bob" 0 15]]).flatMap (presented "bob" "me" "bob" 0))).2 =
      [.credited 30, .credited 20, .credited 40, .credited 15] ∧
    totalPaid "bob" (payRun (toySign "me") (newMgr "me") exampleOps).2 + 11 ≤ funded "bob" (payRun (toySign "me") (newMgr "me") exampleOps).2 ∧
    (∀ ops ∈ [exampleOps, [.pay "bob" 0 5, .topup "bob" 20 (.executed "ch3"), .pay "bob" 0 15]], ∀ op ∈ ops, Positive op) := by
  refine ⟨fun b s h => ?_, ?_, by decide +kernel, by decide +kernel, ?_⟩
  · simp [toySign] at h
    subst h
    simp [toyVerify]
  · simp [NewChannels, Opens, exampleOps]
    rintro ch a (⟨rfl, rfl⟩ | ⟨rfl, rfl⟩) x <;> exact absurd x (by decide)
  · intro ops h op hop
    simp [exampleOps] at h
    rcases h with rfl | rfl <;> simp at hop <;> rcases hop with rfl | rfl | rfl | rfl | rfl | rfl | rfl | rfl | rfl | rfl <;> simp [Positive]

end FcRetrieval.Payment
