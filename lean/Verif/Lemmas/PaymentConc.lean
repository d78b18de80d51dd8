import Verif.Lemmas.PaymentRecv
/-! Helper lemmas: payer and payee together; interleavings. -/

set_option linter.unusedSimpArgs false

namespace FcRetrieval.Payment

variable {Sig : Type}

/-- The payee's view of the channel agrees with the payer's. -/
def Agree (mP mR : Mgr Sig) (r : Addr) : Prop :=
  match mP.outbound r with
  | none => ∀ x, mR.inbound x = none
  | some c => (inC mR c.addr).redeemed = c.redeemed ∧ (inC mR c.addr).balance ≤ c.balance ∧
      (∀ i, ((inC mR c.addr).lane i).redeemed = (c.lane i).redeemed) ∧
      (∀ i, ((inC mR c.addr).lane i).nonce = (c.lane i).nonce)

theorem agree_congr {mP mP' mR : Mgr Sig} {r : Addr} (h : mP'.outbound r = mP.outbound r) (ha : Agree mP mR r) : Agree mP' mR r := by
  unfold Agree at ha ⊢
  rw [h]; exact ha

theorem snocInd {α : Type} {P : List α → Prop} (nil : P []) (append : ∀ l a, P l → P (l ++ [a])) (l : List α) : P l := by
  have : ∀ k : List α, P k.reverse := by
    intro k
    induction k with
    | nil => exact nil
    | cons a k ih => rw [List.reverse_cons]; exact append _ _ ih
  simpa using this l.reverse

theorem recvCheck_accept {verify : Sig → Addr → VBody → Bool} {me payer : Addr} {c : Chan Sig} {v : Voucher Sig} {bal : Int}
    (hv : verify v.sig payer v.body = true) (hn : (c.lane v.body.lane).nonce = v.body.nonce)
    (ha : (c.lane v.body.lane).redeemed < v.body.amount)
    (hb : c.redeemed + (v.body.amount - (c.lane v.body.lane).redeemed) ≤ c.balance) :
    recvCheck verify me c v ⟨bal, .key me, .key payer⟩ =
      ({ c with redeemed := c.redeemed + (v.body.amount - (c.lane v.body.lane).redeemed), lanes := put c.lanes v.body.lane ⟨(v.body.nonce + 1) % 2 ^ 64, v.body.amount, (c.lane v.body.lane).vouchers ++ [v]⟩ },
        .credited (v.body.amount - (c.lane v.body.lane).redeemed)) := by
  unfold recvCheck
  simp only [ne_eq, not_true_eq_false, if_false, hv, Bool.true_eq_false]
  rw [if_neg (by omega), if_neg (by omega), if_neg (by omega)]

theorem receive_accept {verify : Sig → Addr → VBody → Bool} {m : Mgr Sig} {payer ch : Addr} {v : Voucher Sig} {bal : Int}
    (hv : verify v.sig payer v.body = true) (hn : ((inC m ch).lane v.body.lane).nonce = v.body.nonce)
    (ha : ((inC m ch).lane v.body.lane).redeemed < v.body.amount)
    (hb : (inC m ch).redeemed + (v.body.amount - ((inC m ch).lane v.body.lane).redeemed) ≤ bal)
    (hbal : (inC m ch).balance ≤ bal) :
    (receive verify m ch (some v) (some ⟨bal, .key m.address, .key payer⟩)).2 =
      .credited (v.body.amount - ((inC m ch).lane v.body.lane).redeemed) ∧
    (inC (receive verify m ch (some v) (some ⟨bal, .key m.address, .key payer⟩)).1 ch).balance = bal := by
  unfold receive
  cases hc : m.inbound ch with
  | none =>
    have h0 : inC m ch = ⟨"", 0, 0, fun _ => none⟩ := by simp [inC, hc]
    have hl : (Chan.lane (⟨ch, bal, 0, fun _ => none⟩ : Chan Sig) v.body.lane) = (inC m ch).lane v.body.lane := by rw [h0]; rfl
    simp only [recvCreate]
    rw [recvCheck_accept hv (by rw [hl]; exact hn) (by rw [hl]; exact ha) (by rw [hl]; rw [h0] at hb ⊢; exact hb)]
    simp only [hl, true_and]
    simp [inC]
  | some c =>
    have h0 : inC m ch = c := by simp [inC, hc]
    have hl : (Chan.lane ({ c with balance := bal } : Chan Sig) v.body.lane) = (inC m ch).lane v.body.lane := by rw [h0]; rfl
    simp only [recvFound]
    rw [if_neg (by rw [h0] at hbal; simp; exact hbal)]
    rw [recvCheck_accept hv (by rw [hl]; exact hn) (by rw [hl]; exact ha) (by rw [hl]; rw [h0] at hb ⊢; exact hb)]
    simp only [hl, true_and]
    simp [inC]

theorem agree_run {sign : VBody → Option Sig} {verify : Sig → Addr → VBody → Bool} {payer : Addr} (r : Addr)
    (hsv : ∀ b s, sign b = some s → verify s payer b = true) :
    ∀ (ops : List PayOp) (mP mR : Mgr Sig) , (∀ op ∈ ops, Positive op) → Agree mP mR r →
      (recvRun verify mR (presented r payer mR.address (outC mP r).balance (payRun sign mP ops).2)).2 =
        (amountsTo r (payRun sign mP ops).2).map .credited
  | [], mP, mR, _, _ => by simp [payRun, presented, amountsTo, recvRun]
  | op :: ops, mP, mR, hops, hag => by
    have hrec := fun mP' mR' => agree_run r hsv ops mP' mR' (fun o ho => hops o (by simp [ho]))
    have hop := hops op (by simp)
    have e2 : (payRun sign mP (op :: ops)).2 = (payStep sign mP op).2 :: (payRun sign (payStep sign mP op).1 ops).2 := rfl
    rw [e2]
    cases op with
    | topup r' a chn =>
      have ha : 0 < a := hop
      cases chn with
      | failed =>
        simp only [payStep, topup, presented, amountsTo]
        exact hrec _ _ hag
      | executed addr =>
        simp only [payStep, topup]
        cases hc : mP.outbound r' with
        | none =>
          simp only [presented, amountsTo]
          by_cases h : r' = r
          · subst h
            simp only [if_pos]
            have h0 : outC mP r' = ⟨"", 0, 0, fun _ => none⟩ := by simp [outC, hc]
            have hb : (outC (topupCreate mP r' a addr) r').balance = (outC mP r').balance + a := by
              rw [h0]; simp [outC, topupCreate]
            rw [← hb]
            apply hrec
            unfold Agree at hag ⊢
            rw [hc] at hag
            simp only at hag
            simp only [topupCreate, put_same]
            have : inC mR addr = ⟨"", 0, 0, fun _ => none⟩ := by simp [inC, hag addr]
            rw [this]
            exact ⟨rfl, by simp; omega, fun _ => rfl, fun _ => rfl⟩
          · rw [if_neg h]
            have hb : outC (topupCreate mP r' a addr) r = outC mP r := by
              simp [outC, topupCreate, put_other _ _ (Ne.symm h)]
            rw [← hb]
            apply hrec
            unfold Agree at hag ⊢
            rw [show (topupCreate mP r' a addr).outbound r = mP.outbound r from put_other _ _ (Ne.symm h)]
            exact hag
        | some c =>
          simp only [presented, amountsTo]
          by_cases h : r' = r
          · subst h
            simp only [if_pos]
            have h0 : outC mP r' = c := by simp [outC, hc]
            have hb : (outC (topupAdd mP r' c a) r').balance = (outC mP r').balance + a := by
              rw [h0]; simp [outC, topupAdd]
            rw [← hb]
            apply hrec
            unfold Agree at hag ⊢
            rw [hc] at hag
            simp only at hag
            simp only [topupAdd, put_same]
            exact ⟨hag.1, by have := hag.2.1; omega, hag.2.2.1, hag.2.2.2⟩
          · rw [if_neg h]
            have hb : outC (topupAdd mP r' c a) r = outC mP r := by
              simp [outC, topupAdd, put_other _ _ (Ne.symm h)]
            rw [← hb]
            apply hrec
            unfold Agree at hag ⊢
            rw [show (topupAdd mP r' c a).outbound r = mP.outbound r from put_other _ _ (Ne.symm h)]
            exact hag
    | pay r' lane a =>
      have ha : 0 < a := hop
      simp only [payStep, pay]
      cases hc : mP.outbound r' with
      | none => simp only [presented, amountsTo]; exact hrec _ _ hag
      | some c =>
        have h0 : outC mP r' = c := by simp [outC, hc]
        simp only
        by_cases hb : c.balance < c.redeemed + a
        · rw [if_pos hb]; simp only [presented, amountsTo]; exact hrec _ _ hag
        rw [if_neg hb]
        cases hs : sign ⟨c.addr, lane, (c.lane lane).nonce, (c.lane lane).redeemed + a⟩ with
        | none =>
          simp only [presented, amountsTo]
          have hbal : (outC { mP with outbound := put mP.outbound r' { c with lanes := put c.lanes lane (c.lane lane) } } r).balance = (outC mP r).balance := by
            by_cases h : r = r'
            · subst h; rw [h0]; simp [outC]
            · simp [outC, put_other _ _ h]
          rw [← hbal]
          apply hrec
          by_cases h : r = r'
          · subst h
            unfold Agree at hag ⊢
            rw [hc] at hag
            simp only [put_same]
            refine ⟨hag.1, hag.2.1, ?_, ?_⟩ <;> intro i
            · rw [hag.2.2.1 i, lane_put']; split
              · rename_i hi; rw [hi]
              · rfl
            · rw [hag.2.2.2 i, lane_put']; split
              · rename_i hi; rw [hi]
              · rfl
          · exact agree_congr (put_other _ _ h) hag
        | some sig =>
          simp only [presented, amountsTo]
          by_cases h : r' = r
          · subst h
            simp only [if_pos]
            rw [recvRun_cons]
            simp only [List.map_cons]
            generalize hv : (⟨⟨c.addr, lane, (c.lane lane).nonce, (c.lane lane).redeemed + a⟩, sig⟩ : Voucher Sig) = v
            unfold Agree at hag
            rw [hc] at hag
            simp only at hag
            obtain ⟨g1, g2, g3, g4⟩ := hag
            have hvl : v.body.lane = lane := by rw [← hv]
            have hvn : v.body.nonce = (c.lane lane).nonce := by rw [← hv]
            have hva : v.body.amount = (c.lane lane).redeemed + a := by rw [← hv]
            obtain ⟨q1, q2⟩ := receive_accept (verify := verify) (m := mR) (payer := payer) (ch := c.addr) (v := v) (bal := (outC mP r').balance)
              (by rw [← hv]; exact hsv _ _ hs) (by rw [hvl, hvn, g4]) (by rw [hvl, g3, hva]; omega)
              (by rw [hvl, g3, hva, g1, h0]; omega) (by rw [h0]; exact g2)
            rw [h0] at q1 q2 ⊢
            have hval : v.body.amount - ((inC mR c.addr).lane v.body.lane).redeemed = a := by
              rw [hvl, g3, hva]; omega
            rw [hval] at q1
            rw [q1]
            congr 1
            generalize hnew : ({ c with redeemed := c.redeemed + a, lanes := put c.lanes lane ⟨((c.lane lane).nonce + 1) % 2 ^ 64, (c.lane lane).redeemed + a, (c.lane lane).vouchers ++ [v]⟩ } : Chan Sig) = c'
            have hb' : (outC { mP with outbound := put mP.outbound r' c' } r').balance = c.balance := by
              rw [← hnew]; simp [outC]
            have hsp := receive_spec verify mR ⟨c.addr, some v, some ⟨c.balance, .key mR.address, .key payer⟩⟩
            simp only at hsp
            generalize hm' : receive verify mR c.addr (some v) (some ⟨c.balance, .key mR.address, .key payer⟩) = res at *
            suffices hagree : Agree { mP with outbound := put mP.outbound r' c' } res.1 r' by
              have key := hrec _ _ hagree
              rw [hb', hsp.1] at key
              exact key
            unfold Agree
            simp only [put_same]
            have hca : c'.addr = c.addr := by rw [← hnew]
            rw [hca]
            obtain ⟨_, ⟨a', v', ch', k1, k2, k3, k4, k5, k6, k7, _, _, k8, k9⟩ | ⟨k1, k2, k3⟩⟩ := hsp
            · simp only [Option.some.injEq] at k2 k3
              subst k2; subst k3
              rw [q1] at k1
              simp only [RecvOut.credited.injEq] at k1
              subst k1
              have hl' : ∀ j, c'.lane j = if j = lane then ⟨((c.lane lane).nonce + 1) % 2 ^ 64, (c.lane lane).redeemed + a, (c.lane lane).vouchers ++ [v]⟩ else c.lane j := by
                intro j; rw [← hnew]; exact lane_put
              refine ⟨?_, ?_, ?_, ?_⟩
              · rw [k8, g1, ← hnew]; simp
              · rw [q2, ← hnew]; simp
              · intro i
                rw [k9, hl', hvl]
                by_cases hi : i = lane
                · simp [hi, hva]
                · simp [hi, g3]
              · intro i
                rw [k9, hl', hvl]
                by_cases hi : i = lane
                · simp [hi, hvn]
                · simp [hi, g4]
            · exact absurd q1 (k1 a)
          · rw [if_neg h, if_neg h]
            generalize ({ c with redeemed := c.redeemed + a, lanes := put c.lanes lane ⟨((c.lane lane).nonce + 1) % 2 ^ 64, (c.lane lane).redeemed + a, (c.lane lane).vouchers ++ [⟨⟨c.addr, lane, (c.lane lane).nonce, (c.lane lane).redeemed + a⟩, sig⟩]⟩ } : Chan Sig) = c'
            have hb' : (outC { mP with outbound := put mP.outbound r' c' } r) = outC mP r := by
              simp [outC, put_other _ _ (Ne.symm h)]
            rw [← hb']
            apply hrec
            exact agree_congr (put_other _ _ (Ne.symm h)) hag

/-! ## interleavings -/

section conc
variable {St Call Out : Type}

theorem serially_append (call : St → Call → St × Out) (calls : List Call) : ∀ (is js : List Nat) (st : St),
    serially call calls st (is ++ js) = ((serially call calls (serially call calls st is).1 js).1,
      (serially call calls st is).2 ++ (serially call calls (serially call calls st is).1 js).2)
  | [], js, st => by simp [serially]
  | i :: is, js, st => by
    simp only [List.cons_append, serially]
    cases calls[i]? with
    | none => simp only [serially_append call calls is js]
    | some c => simp only [serially_append call calls is js, List.cons_append]

/-- If, while `Inv` holds, a call that starts completes in one step as `call` does, every schedule amounts to running
the completed calls one after the other. -/
theorem linearise {step : St → Call → Pc Out → St × Pc Out} {call : St → Call → St × Out} {Inv : St → Prop}
    {calls : List Call} (hstart : ∀ st, Inv st → ∀ c ∈ calls, step st c .start = ((call st c).1, .done (call st c).2))
    (hdone : ∀ st c o, step st c (.done o) = (st, .done o)) (hinv : ∀ st c, c ∈ calls → Inv st → Inv (call st c).1)
    {st : St} (h0 : Inv st) (sched : List Nat) :
    ∃ order : List Nat, order.Nodup ∧ (∀ i, i ∈ order ↔ i ∈ sched ∧ i < calls.length) ∧
      (sysRun step ⟨st, calls.map (·, .start)⟩ sched).state = (serially call calls st order).1 ∧
      Inv (sysRun step ⟨st, calls.map (·, .start)⟩ sched).state ∧
      (sysRun step ⟨st, calls.map (·, .start)⟩ sched).threads.length = calls.length ∧
      (∀ i c, calls[i]? = some c → i ∉ order → (sysRun step ⟨st, calls.map (·, .start)⟩ sched).threads[i]? = some (c, .start)) ∧
      (∀ i o, (i, o) ∈ (serially call calls st order).2 → i ∈ order) ∧
      (∀ i c, calls[i]? = some c → i ∈ order → ∃ o, (i, o) ∈ (serially call calls st order).2 ∧
        (sysRun step ⟨st, calls.map (·, .start)⟩ sched).threads[i]? = some (c, .done o)) := by
  induction sched using snocInd with
  | nil =>
    refine ⟨[], by simp, by simp, rfl, h0, by simp [sysRun], ?_, by simp [serially], by simp⟩
    intro i c hc _
    simp [sysRun, hc]
  | append sched i ih =>
    obtain ⟨order, hnd, hmem, hst, hI, hlen, hun, hsub, hd⟩ := ih
    have hrun : sysRun step ⟨st, calls.map (·, .start)⟩ (sched ++ [i]) =
        sysStep step (sysRun step ⟨st, calls.map (·, .start)⟩ sched) i := by
      simp [sysRun, List.foldl_append]
    rw [hrun]
    generalize hs : sysRun step ⟨st, calls.map (·, .start)⟩ sched = s at *
    cases hc : calls[i]? with
    | none =>
      have hge : calls.length ≤ i := by simpa using hc
      have hno : s.threads[i]? = none := by simp [hlen, hge]
      simp only [sysStep, hno]
      refine ⟨order, hnd, ?_, hst, hI, hlen, hun, hsub, hd⟩
      intro j
      rw [hmem j]
      simp only [List.mem_append, List.mem_singleton]
      constructor
      · rintro ⟨h1, h2⟩; exact ⟨Or.inl h1, h2⟩
      · rintro ⟨h1 | h1, h2⟩
        · exact ⟨h1, h2⟩
        · omega
    | some c =>
      have hlt : i < calls.length := by
        rcases Nat.lt_or_ge i calls.length with h | h
        · exact h
        · simp [List.getElem?_eq_none h] at hc
      by_cases hin : i ∈ order
      · obtain ⟨o, ho1, ho2⟩ := hd i c hc hin
        have hs' : sysStep step s i = s := by
          simp only [sysStep, ho2, hdone]
          have : s.threads.set i (c, Pc.done o) = s.threads := by
            apply List.ext_getElem?
            intro j
            rw [List.getElem?_set]
            split
            · rename_i hij; subst hij; rw [ho2]; simp [hlen, hlt]
            · rfl
          rw [this]
        rw [hs']
        refine ⟨order, hnd, ?_, hst, hI, hlen, hun, hsub, hd⟩
        intro j
        rw [hmem j]
        simp only [List.mem_append, List.mem_singleton]
        constructor
        · rintro ⟨h1, h2⟩; exact ⟨Or.inl h1, h2⟩
        · rintro ⟨h1 | h1, h2⟩
          · exact ⟨h1, h2⟩
          · subst h1; exact (hmem j).1 hin
      · have hth := hun i c hc hin
        have hcm : c ∈ calls := List.mem_of_getElem? hc
        have hs' : sysStep step s i = ⟨(call s.state c).1, s.threads.set i (c, .done (call s.state c).2)⟩ := by
          simp only [sysStep, hth, hstart s.state hI c hcm]
        rw [hs']
        have hser : serially call calls st (order ++ [i]) = ((call s.state c).1, (serially call calls st order).2 ++ [(i, (call s.state c).2)]) := by
          rw [serially_append]
          simp only [serially, hc, ← hst]
        refine ⟨order ++ [i], ?_, ?_, ?_, hinv _ _ hcm hI, ?_, ?_, ?_, ?_⟩
        · rw [List.nodup_append]
          refine ⟨hnd, by simp, ?_⟩
          intro a ha b hb
          simp at hb
          subst hb
          exact fun h => hin (h ▸ ha)
        · intro j
          simp only [List.mem_append, List.mem_singleton, hmem j]
          constructor
          · rintro (⟨h1, h2⟩ | rfl)
            · exact ⟨Or.inl h1, h2⟩
            · exact ⟨Or.inr rfl, hlt⟩
          · rintro ⟨h1 | h1, h2⟩
            · exact Or.inl ⟨h1, h2⟩
            · exact Or.inr h1
        · rw [hser]
        · simp [hlen]
        · intro j d hj hjn
          simp only [List.mem_append, List.mem_singleton, not_or] at hjn
          simp only
          rw [List.getElem?_set_ne (Ne.symm hjn.2)]
          exact hun j d hj hjn.1
        · intro j o hj
          rw [hser] at hj
          simp only [List.mem_append, List.mem_singleton, Prod.mk.injEq] at hj ⊢
          rcases hj with hj | hj
          · exact Or.inl (hsub j o hj)
          · exact Or.inr hj.1
        · intro j d hj hjm
          rw [hser]
          simp only [List.mem_append, List.mem_singleton] at hjm
          by_cases hji : j = i
          · subst hji
            rw [hc] at hj
            simp only [Option.some.injEq] at hj
            subst hj
            refine ⟨(call s.state c).2, by simp, ?_⟩
            simp [hlen, hlt]
          · rcases hjm with hjm | hjm
            · obtain ⟨o, ho1, ho2⟩ := hd j d hj hjm
              refine ⟨o, by simp [ho1], ?_⟩
              simp only
              rw [List.getElem?_set_ne (Ne.symm hji)]
              exact ho2
            · exact absurd hjm hji

end conc

end FcRetrieval.Payment
