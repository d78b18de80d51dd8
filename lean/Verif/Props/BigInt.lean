import Verif.Lemmas.BigInt
import Verif.Props.Payment
/-!
# C166: a top-up sends the amount it was asked for

`Model/BigInt.lean` keeps the arrays of the numbers.  With a number whose array has no room to spare the payment manager is
that of `Model/Payment.lean`; with one whose array has room, the second top-up of a recipient overwrites the caller's number and
the balances of the other recipients.
-/
set_option linter.unusedSimpArgs false

namespace FcRetrieval.BigInt

open Payment

variable {Sig : Type}

/-- Called with numbers whose arrays have no room to spare, the payment manager does what the one of `Model/Payment.lean` does
with the amounts those numbers had at the start: the same top-ups, the same vouchers, the same refusals. -/
theorem C166_as_numbers_partial (sign : VBody → Option Sig) (me : Addr) (h : Heap) (ops : List Op) (ht : AmountsAre (Tight h) ops) :
    (run sign (start me h) ops).2 = (payRun sign (newMgr me) (ops.map (meant h))).2 ∧
    view (run sign (start me h) ops).1 = (payRun sign (newMgr me) (ops.map (meant h))).1 := by
  have := (run_tight sign ops (inv_start me h) ht).2
  rw [view_start] at this
  rw [← this]
  exact ⟨rfl, rfl⟩

theorem run_event (sign : VBody → Option Sig) {h : Heap} (ops : List Op) : ∀ {s : SMgr Sig}, Inv h s → AmountsAre (Tight h) ops →
    ∀ (i : Nat) r n a, ops[i]? = some (.topup r n (.executed a)) → (run sign s ops).2[i]? = some (.toppedUp r (read h n : Nat)) := by
  induction ops with
  | nil => intro s _ _ i r n a hi; simp at hi
  | cons op ops ih =>
    intro s hs ht i r n a hi
    obtain ⟨h1, _⟩ := step_tight sign hs op (fun r n ch e => ht r n ch (by simp [e]))
    cases i with
    | zero =>
      simp only [List.getElem?_cons_zero, Option.some.injEq] at hi
      subst hi
      have hrd := read_tight hs (ht r n (.executed a) (by simp)).1
      simp only [run, step, topup]
      cases s.mgr.outbound r <;> simp [hrd]
    | succ i =>
      simp only [List.getElem?_cons_succ] at hi
      simp only [run, List.getElem?_cons_succ]
      exact ih h1 (fun r n ch hm => ht r n ch (List.mem_cons_of_mem _ hm)) i r n a hi

/-- With such numbers every top-up the chain executes sends the amount the number had at the start, however many there were
before, and afterwards all the numbers the program began with have the values they had. -/
theorem C166_sent_partial (sign : VBody → Option Sig) (me : Addr) (h : Heap) (ops : List Op) (ht : AmountsAre (Tight h) ops) :
    (∀ (i : Nat) r n a, ops[i]? = some (.topup r n (.executed a)) →
      (run sign (start me h) ops).2[i]? = some (.toppedUp r (read h n : Nat))) ∧
    ∀ n : Num, n.arr < h.length → read (run sign (start me h) ops).1.heap n = read h n :=
  ⟨run_event sign ops (inv_start me h) ht, fun _ hn => read_tight (run_tight sign ops (inv_start me h) ht).1 hn⟩

/-- With such numbers the balance recorded for a recipient is what was sent to its channel. -/
theorem C166_balance_partial (sign : VBody → Option Sig) (me : Addr) (h : Heap) (ops : List Op) (ht : AmountsAre (Tight h) ops)
    (r : Addr) (c : Chan Sig) (hc : (view (run sign (start me h) ops).1).outbound r = some c) :
    c.balance = funded r (run sign (start me h) ops).2 := by
  obtain ⟨h1, h2⟩ := C166_as_numbers_partial sign me h ops ht
  rw [h1]
  rw [h2] at hc
  have := (payRun_spec (sign := sign) (ops.map (meant h)) (nonces_new (a := me))).1 r
  simp only [outC, hc, Option.getD_some] at this
  simpa [outC, newMgr] using this

/-- With such numbers the vouchers promise no more than was sent, as `C35_promised_le_funded_partial` says. -/
theorem C166_promised_partial (sign : VBody → Option Sig) (me : Addr) (h : Heap) (ops : List Op) (ht : AmountsAre (Tight h) ops)
    (hpay : ∀ r lane a, Op.pay r lane a ∈ ops → 0 ≤ a) (r : Addr) (lanes : List Nat) (hl : lanes.Nodup) :
    (lanes.map fun i => highest (issued r i (run sign (start me h) ops).2)).sum ≤ funded r (run sign (start me h) ops).2 := by
  rw [(C166_as_numbers_partial sign me h ops ht).1]
  refine C35_promised_le_funded_partial sign me _ ?_ r lanes hl
  intro op hop
  obtain ⟨o, ho, rfl⟩ := List.mem_map.1 hop
  cases o with
  | topup r n ch => simp [meant, NonNeg]
  | pay r lane a => exact hpay r lane a ho

/-- Three top-ups with one number whose array has room: the third sends another amount than the number had, namely twice that
amount cut to the length of the number, whoever it is for. -/
theorem C166_sent_refuted (sign : VBody → Option Sig) (me : Addr) (h : Heap) (n : Num) (hr : Roomy h n) (hn : 0 < read h n)
    (r r' a1 a2 a3 : Addr) :
    (run sign (start me h) [.topup r n (.executed a1), .topup r n (.executed a2), .topup r' n (.executed a3)]).2 =
      [.toppedUp r (read h n : Nat), .toppedUp r (read h n : Nat), .toppedUp r' (2 * read h n % W ^ n.len : Nat)] ∧
    2 * read h n % W ^ n.len ≠ read h n := by
  refine ⟨?_, twice_ne hn (read_lt h n)⟩
  simp only [run, step, topup, start, newMgr, topupCreate, put, if_true]
  rw [read_add_self hr]
  by_cases e : r' = r <;> simp [e]

/-- Two recipients topped up with one number whose array has room, and the first of them once more: the balance recorded for the
second is no longer what was sent to its channel. -/
theorem C166_balance_refuted (sign : VBody → Option Sig) (me : Addr) (h : Heap) (n : Num) (hr : Roomy h n) (hn : 0 < read h n)
    (r r' a1 a2 a3 : Addr) (hne : r ≠ r') :
    let ops := [Op.topup r n (.executed a1), .topup r' n (.executed a2), .topup r n (.executed a3)]
    funded r' (run sign (start me h) ops).2 = (read h n : Nat) ∧
    ∃ c, (view (run sign (start me h) ops).1).outbound r' = some c ∧ c.balance = (2 * read h n % W ^ n.len : Nat) ∧
      c.balance ≠ (read h n : Nat) := by
  have hne' : r' ≠ r := fun e => hne e.symm
  simp only [run, step, topup, start, newMgr, topupCreate, put, if_true, if_false, hne, hne', view]
  refine ⟨by simp [funded, hne], _, rfl, ?_, ?_⟩
  · simp only [hne', if_false, if_true]
    rw [read_add_self hr]
  · simp only [hne', if_false, if_true]
    rw [read_add_self hr]
    exact fun e => twice_ne hn (read_lt h n) (Int.ofNat.inj e)

/-- C35 fails for such a number if twice its value still fits its length: after those top-ups the payer signs a voucher for twice
what was ever sent to the recipient's channel. -/
theorem C35_shared_refuted (sign : VBody → Option Sig) (hsign : ∀ b, sign b ≠ none) (me : Addr) (h : Heap) (n : Num) (hr : Roomy h n)
    (hn : 0 < read h n) (hfit : 2 * read h n < W ^ n.len) (r r' a1 a2 a3 : Addr) (hne : r ≠ r') (lane : Nat) :
    let ops := [Op.topup r n (.executed a1), .topup r' n (.executed a2), .topup r n (.executed a3), .pay r' lane (2 * read h n : Nat)]
    funded r' (run sign (start me h) ops).2 = (read h n : Nat) ∧
    highest (issued r' lane (run sign (start me h) ops).2) = (2 * read h n : Nat) := by
  have hne' : r' ≠ r := fun e => hne e.symm
  have hb : read (add h n n).1 n = 2 * read h n := by rw [read_add_self hr, Nat.mod_eq_of_lt hfit]
  cases hs : sign ⟨a2, lane, 0, 0 + (2 * read h n : Nat)⟩ with
  | none => exact absurd hs (hsign _)
  | some sig =>
    have hlane : (Chan.lane (Sig := Sig) ⟨a2, (read (add h n n).1 n : Nat), 0, fun _ => none⟩ lane) = newLane := rfl
    have hge : ¬ ((read (add h n n).1 n : Nat) : Int) < 0 + (2 * read h n : Nat) := by rw [hb]; omega
    simp only [run, step, topup, start, newMgr, topupCreate, put, if_true, if_false, hne, hne', view, pay, Option.map_some, hge,
      Chan.lane, Option.getD_none, newLane, hs]
    simp only [funded, issued, hne, hne', if_true, if_false, and_self, highest]
    omega

/-- It fails the other way if twice the value does not fit: what was sent to the recipient's channel cannot be spent. -/
theorem C35_shared_short_refuted (sign : VBody → Option Sig) (me : Addr) (h : Heap) (n : Num) (hr : Roomy h n)
    (hfit : W ^ n.len ≤ 2 * read h n) (r r' a1 a2 a3 : Addr) (hne : r ≠ r') (lane : Nat) :
    (run sign (start me h) [.topup r n (.executed a1), .topup r' n (.executed a2), .topup r n (.executed a3),
      .pay r' lane (read h n : Nat)]).2 =
      [.toppedUp r (read h n : Nat), .toppedUp r' (read h n : Nat), .toppedUp r (read h n : Nat), .refused] := by
  have hne' : r' ≠ r := fun e => hne e.symm
  have hlt := read_lt h n
  have hb : read (add h n n).1 n < read h n := by
    rw [read_add_self hr, Nat.mod_eq_sub_mod hfit, Nat.mod_eq_of_lt (by omega)]; omega
  have hge : ((read (add h n n).1 n : Nat) : Int) < 0 + (read h n : Nat) := by omega
  simp only [run, step, topup, start, newMgr, topupCreate, put, if_true, if_false, hne, hne', view, pay, Option.map_some, hge]

/-- An amount of at most 19 digits in the settings, 9.99 FIL, is a number whose array has no room to spare; so is the default. -/
theorem C166_written_partial (ds : List Nat) (hw : Written ds) (h : ds.length ≤ 19) :
    Tight [(scanDec ds).arr] ⟨0, (scanDec ds).len⟩ ∧ read [(scanDec ds).arr] ⟨0, (scanDec ds).len⟩ = decimal ds := by
  rw [scan_small hw h]
  refine ⟨⟨by simp, by simp [Heap.at, Acc.arr]⟩, ?_⟩
  simp only [read, Heap.at, Acc.arr, List.getElem?_cons_zero, Option.getD_some]
  refine Nat.mod_eq_of_lt (Nat.lt_of_lt_of_le (decimal_lt ds hw.1) ?_)
  exact Nat.le_trans (Nat.pow_le_pow_right (by decide) h) (by decide)

/-- `big.NewInt` gives numbers whose arrays have no room to spare. -/
theorem C166_default_partial (v : Nat) (hv : v < W) :
    Tight [(newInt v).arr] ⟨0, (newInt v).len⟩ ∧ read [(newInt v).arr] ⟨0, (newInt v).len⟩ = v := by
  unfold newInt
  by_cases h : v = 0
  · simp [h, Tight, Heap.at, Acc.arr, read]
  · simp only [h, if_false]
    refine ⟨⟨by simp, by simp [Heap.at, Acc.arr]⟩, ?_⟩
    simp only [read, Heap.at, Acc.arr, List.getElem?_cons_zero, Option.getD_some]
    exact Nat.mod_eq_of_lt (by simpa using hv)

/-- An amount of 20 to 38 digits in the settings, 10 FIL and more, is a number whose array has room: with it, the third top-up
of a gateway sends another amount than the one written in the settings. -/
theorem C166_written_refuted (sign : VBody → Option Sig) (me : Addr) (ds : List Nat) (hw : Written ds) (h : 20 ≤ ds.length)
    (h' : ds.length ≤ 38) (r r' a1 a2 a3 : Addr) :
    let heap := [(scanDec ds).arr]
    let n : Num := ⟨0, (scanDec ds).len⟩
    Roomy heap n ∧ read heap n = decimal ds ∧
    ∃ x : Nat, x ≠ decimal ds ∧
      (run sign (start me heap) [.topup r n (.executed a1), .topup r n (.executed a2), .topup r' n (.executed a3)]).2 =
        [.toppedUp r (decimal ds), .toppedUp r (decimal ds), .toppedUp r' x] := by
  have hp := decimal_pos hw
  have hlt : decimal ds < W ^ 2 := Nat.lt_of_lt_of_le (decimal_lt ds hw.1)
    (Nat.le_trans (Nat.pow_le_pow_right (by decide) h') (by decide))
  have hroom : Roomy [(scanDec ds).arr] ⟨0, (scanDec ds).len⟩ := by
    rw [scan_large hw h h']
    refine ⟨by simp, norm_two_pos hp, ?_⟩
    have := norm_le 2 (decimal ds)
    simp only [Heap.at, Acc.arr, List.getElem?_cons_zero, Option.getD_some]
    omega
  have hread : read [(scanDec ds).arr] ⟨0, (scanDec ds).len⟩ = decimal ds := by
    rw [scan_large hw h h']
    simp only [read, Heap.at, Acc.arr, List.getElem?_cons_zero, Option.getD_some]
    exact Nat.mod_eq_of_lt (lt_norm hlt)
  obtain ⟨h1, h2⟩ := C166_sent_refuted sign me _ _ hroom (by rw [hread]; exact hp) r r' a1 a2 a3
  rw [hread] at h1 h2
  exact ⟨hroom, hread, _, h2, h1⟩

/-- So is a number got by multiplying, such as ten times one FIL: `new(big.Int).Mul(big.NewInt(x), big.NewInt(y))`. -/
theorem C166_product_refuted (x y : Nat) (hx : 0 < x) (hy : 0 < y) (hx' : x < W) (hy' : y < W) :
    Roomy [(mulNew (newInt x) (newInt y)).arr] ⟨0, (mulNew (newInt x) (newInt y)).len⟩ ∧
    read [(mulNew (newInt x) (newInt y)).arr] ⟨0, (mulNew (newInt x) (newInt y)).len⟩ = x * y := by
  have hp : 0 < x * y := Nat.mul_pos hx hy
  have hlt : x * y < W ^ 2 := by
    rw [Nat.pow_two]
    exact Nat.mul_lt_mul'' hx' hy'
  have e : mulNew (newInt x) (newInt y) = ⟨6, norm 2 (x * y), x * y⟩ := by
    have h1 : x ≠ 0 := by omega
    have h2 : y ≠ 0 := by omega
    simp [mulNew, newInt, h1, h2, newCap]
  rw [e]
  refine ⟨⟨by simp, norm_two_pos hp, ?_⟩, ?_⟩
  · have := norm_le 2 (x * y)
    simp only [Heap.at, Acc.arr, List.getElem?_cons_zero, Option.getD_some]
    omega
  · simp only [read, Heap.at, Acc.arr, List.getElem?_cons_zero, Option.getD_some]
    exact Nat.mod_eq_of_lt (lt_norm hlt)

/-! Concrete cases. -/

/-- The default of the settings, 0.1 FIL: three top-ups send the same amount. -/
example : Tight [(newInt 100000000000000000).arr] ⟨0, 1⟩ ∧
    (run (toySign "me") (start "me" [(newInt 100000000000000000).arr])
      [.topup "bob" ⟨0, 1⟩ (.executed "c1"), .topup "bob" ⟨0, 1⟩ (.executed "c1"), .topup "eve" ⟨0, 1⟩ (.executed "c2"),
        .pay "bob" 0 200000000000000000]).2.length = 4 := by
  refine ⟨⟨by decide, by decide⟩, by decide +kernel⟩

/-- Ten FIL, written out, are 20 digits and one word: the third top-up sends what is left of twenty FIL in one word... -/
example : Written [1, 0, 0, 0, 0, 0, 0, 0, 0, 0, 0, 0, 0, 0, 0, 0, 0, 0, 0, 0] ∧
    decimal [1, 0, 0, 0, 0, 0, 0, 0, 0, 0, 0, 0, 0, 0, 0, 0, 0, 0, 0, 0] = 10 ^ 19 ∧
    scanDec [1, 0, 0, 0, 0, 0, 0, 0, 0, 0, 0, 0, 0, 0, 0, 0, 0, 0, 0, 0] = ⟨6, 1, 10 ^ 19⟩ ∧
    2 * 10 ^ 19 % W ^ 1 = 1553255926290448384 := by
  refine ⟨⟨by decide, 1, _, rfl, by decide⟩, by decide, by decide +kernel, by decide⟩

/-- ...and twenty FIL are two words, which twice the amount fits: the third top-up sends forty. -/
example : scanDec [2, 0, 0, 0, 0, 0, 0, 0, 0, 0, 0, 0, 0, 0, 0, 0, 0, 0, 0, 0] = ⟨6, 2, 20 * 10 ^ 18⟩ ∧
    Roomy [⟨6, 20 * 10 ^ 18⟩] ⟨0, 2⟩ ∧ 2 * read [⟨6, 20 * 10 ^ 18⟩] ⟨0, 2⟩ < W ^ 2 ∧
    2 * read [⟨6, 20 * 10 ^ 18⟩] ⟨0, 2⟩ % W ^ 2 = 40 * 10 ^ 18 := by
  refine ⟨by decide +kernel, ⟨by decide, by decide, by decide⟩, by decide, by decide⟩

end FcRetrieval.BigInt
