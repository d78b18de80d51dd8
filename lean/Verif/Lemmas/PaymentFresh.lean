import Verif.Lemmas.PaymentRecv
/-! What a fresh payment manager does with a voucher that another one has credited. -/
set_option linter.unusedSimpArgs false

namespace FcRetrieval.Payment
variable {Sig : Type}

/-- On every channel at least as much has been credited as on each of its lanes. -/
def LanesWithin (m : Mgr Sig) : Prop := ∀ x, 0 ≤ (inC m x).redeemed ∧ ∀ i, 0 ≤ ((inC m x).lane i).redeemed ∧ ((inC m x).lane i).redeemed ≤ (inC m x).redeemed

theorem receive_lanes (verify : Sig → Addr → VBody → Bool) {m : Mgr Sig} (h : LanesWithin m) (op : RecvOp Sig) :
    LanesWithin (receive verify m op.channel op.voucher op.chain).1 := by
  obtain ⟨-, ⟨a, v, cv, -, -, -, h1, h2, -, -, -, -, h3, h4⟩ | ⟨-, h3, h4⟩⟩ := receive_spec verify m op
  · intro x
    refine ⟨?_, fun i => ?_⟩
    · rw [h3]
      have := (h x).1
      split <;> omega
    · rw [h4, h3]
      have hx := (h x).2 i
      by_cases hxc : x = op.channel
      · subst hxc
        have hv := (h op.channel).2 v.body.lane
        by_cases hi : i = v.body.lane
        · simp only [hi, and_self, if_true]
          omega
        · simp only [hi, and_false, if_false, if_true]
          omega
      · simp only [hxc, false_and, if_false]
        omega
  · intro x
    refine ⟨by rw [h3]; exact (h x).1, fun i => by rw [h4, h3]; exact (h x).2 i⟩

theorem recvRun_lanes (verify : Sig → Addr → VBody → Bool) : ∀ (ops : List (RecvOp Sig)) {m : Mgr Sig}, LanesWithin m → LanesWithin (recvRun verify m ops).1
  | [], _, h => h
  | op :: ops, _, h => recvRun_lanes verify ops (receive_lanes verify h op)

theorem newMgr_lanes (me : Addr) : LanesWithin (newMgr me : Mgr Sig) := fun _ => ⟨Int.le_refl _, fun _ => ⟨Int.le_refl _, Int.le_refl _⟩⟩

/-- A fresh manager credits a voucher that was credited after some history, with all of its amount. -/
theorem fresh_credits (verify : Sig → Addr → VBody → Bool) (me : Addr) (ops : List (RecvOp Sig)) {op : RecvOp Sig} {w : Voucher Sig} {a : Int} (hw : op.voucher = some w)
    (h : (receive verify (recvRun verify (newMgr me) ops).1 op.channel op.voucher op.chain).2 = .credited a) :
    a ≤ w.body.amount ∧ (receive verify (newMgr me) op.channel op.voucher op.chain).2 = .credited w.body.amount := by
  have hl := recvRun_lanes verify ops (newMgr_lanes (Sig := Sig) me)
  have hme : (recvRun verify (newMgr me) ops).1.address = me := recvRun_address verify ops _
  obtain ⟨-, ⟨b, v, cv, h0, hv, hc, h1, h2, -, h3, h4, ⟨k, h5, h6⟩, -, -⟩ | ⟨h1, -, -⟩⟩ := receive_spec verify (recvRun verify (newMgr me) ops).1 op
  · rw [hw] at hv
    cases hv
    rw [h] at h0
    cases h0
    have hx := hl op.channel
    have hi := hx.2 w.body.lane
    refine ⟨by omega, ?_⟩
    rw [hw, hc]
    show (recvCheck verify me ⟨op.channel, cv.balance, 0, fun _ => none⟩ w cv).2 = _
    rw [hme] at h4
    have e1 : ¬ (Chan.lane (⟨op.channel, cv.balance, 0, fun _ => none⟩ : Chan Sig) w.body.lane).nonce > w.body.nonce := Nat.not_lt_zero _
    have e2 : (Chan.lane (⟨op.channel, cv.balance, 0, fun _ => none⟩ : Chan Sig) w.body.lane).redeemed = 0 := rfl
    unfold recvCheck
    simp only [h4, h5, h6, ne_eq, not_true_eq_false, if_false, Bool.true_eq_false, e1, e2]
    rw [if_neg (by omega), if_neg (by omega)]
    simp
  · exact absurd h (h1 a)

/-- The outcome of a call in a history. -/
theorem recvRun_nth (verify : Sig → Addr → VBody → Bool) : ∀ {ops : List (RecvOp Sig)} {m : Mgr Sig} {j : Nat} {op : RecvOp Sig} {o : RecvOut}, ops[j]? = some op →
    (recvRun verify m ops).2[j]? = some o → (receive verify (recvRun verify m (ops.take j)).1 op.channel op.voucher op.chain).2 = o
  | [], _, j, _, _, h, _ => by simp at h
  | op' :: ops, m, 0, op, o, h, h' => by
    simp only [List.getElem?_cons_zero, Option.some.injEq] at h
    subst h
    simpa [recvRun] using h'
  | op' :: ops, m, j + 1, op, o, h, h' => by
    simp only [List.getElem?_cons_succ] at h
    have h2 : (recvRun verify (receive verify m op'.channel op'.voucher op'.chain).1 ops).2[j]? = some o := by
      simpa [recvRun] using h'
    simpa [recvRun] using recvRun_nth verify h h2

end FcRetrieval.Payment
