import Verif.Lemmas.JsPayment
/-!
# Properties of the payment manager of the JavaScript client
-/

set_option linter.unusedSimpArgs false

namespace FcRetrieval.JsPay

/-- C158: whatever has happened, a voucher is for the recipient's channel and the lane asked for, it comes next on its lane, and it is worth the amount
more than the best one there was for that lane. -/
theorem C158_next (sign : Voucher → Option (List Char)) (n : Nat) (h : List Event) (r : List Char) (lane amount : Nat) (m : Mgr) (ad text : List Char) (v : Voucher)
    (hp : pay sign (run sign (newWorld n) h).mgr r lane amount = (m, .paid ad text v)) :
    v.addr = ad ∧ v.lane = lane ∧ v.nonce = (onLane (run sign (newWorld n) h).issued ad lane).length ∧
    v.amount = best (run sign (newWorld n) h).issued ad lane + amount ∧
    (∃ cs, mget (run sign (newWorld n) h).mgr r = some cs ∧ cs.addr = ad) ∧ ∃ t, sign v = some t ∧ text = urlSafe t := by
  have hI := (Inv.init n).run sign h
  rcases pay_cases sign (run sign (newWorld n) h).mgr r lane amount with ⟨h1, _⟩ | ⟨cs, hg, hw, ⟨_, h1⟩ | ⟨t, ht, h1⟩⟩
  · rw [h1] at hp; cases hp
  · rw [h1] at hp; cases hp
  · rw [h1] at hp
    simp only [Prod.mk.injEq, PayOut.paid.injEq] at hp
    obtain ⟨_, rfl, rfl, rfl⟩ := hp
    obtain ⟨h2, h3⟩ := (hI.booked r cs hg).lane lane
    exact ⟨rfl, rfl, h2, by dsimp only; rw [h3], ⟨cs, hg, rfl⟩, t, ht, rfl⟩

/-- C158: the vouchers for a recipient's channel, all lanes together, never exceed the balance the manager has recorded, and no two recipients have the
same channel. -/
theorem C158_within (sign : Voucher → Option (List Char)) (n : Nat) (h : List Event) (r : List Char) (cs : Chan)
    (hg : mget (run sign (newWorld n) h).mgr r = some cs) :
    (∀ lanes : List Nat, lanes.Nodup → owed (run sign (newWorld n) h).issued cs.addr lanes ≤ cs.balance) ∧
    ∀ r' cs', mget (run sign (newWorld n) h).mgr r' = some cs' → cs'.addr = cs.addr → r' = r := by
  have hI := (Inv.init n).run sign h
  exact ⟨fun lanes hn => Nat.le_trans ((hI.booked r cs hg).total lanes hn) (hI.booked r cs hg).within, fun r' cs' h1 h2 => hI.apart _ _ _ _ h1 hg h2⟩

/-- C158: a payment gets a voucher exactly when the recorded balance covers it together with the vouchers there are, whatever their lanes; otherwise it
asks for a top-up. -/
theorem C158_pays (sign : Voucher → Option (List Char)) (hs : ∀ v, (sign v).isSome) (n : Nat) (h : List Event) (r : List Char) (cs : Chan)
    (hg : mget (run sign (newWorld n) h).mgr r = some cs) (lanes : List Nat) (hn : lanes.Nodup)
    (hl : ∀ v ∈ (run sign (newWorld n) h).issued, v.addr = cs.addr → v.lane ∈ lanes) (lane amount : Nat) :
    (owed (run sign (newWorld n) h).issued cs.addr lanes + amount ≤ cs.balance →
      ∃ text v, (pay sign (run sign (newWorld n) h).mgr r lane amount).2 = .paid cs.addr text v) ∧
    (cs.balance < owed (run sign (newWorld n) h).issued cs.addr lanes + amount →
      pay sign (run sign (newWorld n) h).mgr r lane amount = ((run sign (newWorld n) h).mgr, .topup)) := by
  have hI := (Inv.init n).run sign h
  rw [(hI.booked r cs hg).exact lanes hn hl]
  rcases pay_cases sign (run sign (newWorld n) h).mgr r lane amount with ⟨h1, h2⟩ | ⟨cs', hg', hw, ⟨h2, h1⟩ | ⟨t, ht, h1⟩⟩
  · have := h2 cs hg
    exact ⟨fun hle => by omega, fun _ => h1⟩
  · have := hs ⟨cs'.addr, ((mget cs'.lanes lane).getD ⟨0, 0, []⟩).redeemed + amount, lane, ((mget cs'.lanes lane).getD ⟨0, 0, []⟩).nonce⟩
    rw [h2] at this
    cases this
  · rw [hg] at hg'
    cases hg'
    exact ⟨fun _ => ⟨_, _, by rw [h1]⟩, fun hlt => by omega⟩

/-- The calls that make the trouble: a top-up for a recipient comes while another one is making a channel. -/
def overlap (r A1 A2 : List Char) (a b : Nat) : List Event :=
  [.topup r a, .topup r b, .go 0 A1, .go 0 A1, .go 1 A2, .go 1 A2, .go 0 A1]

theorem overlap_run (sign : Voucher → Option (List Char)) (n : Nat) (r A1 A2 : List Char) (a b : Nat) (hA : A1 ≠ A2) :
    run sign (newWorld (n + 1)) (overlap r A1 A2 a b) =
      ⟨[(r, ⟨A1, a, 0, []⟩)], [.created r b A2], [(A1, a), (A2, b)], n + 3, []⟩ := by
  simp [run, overlap, newWorld, step, start, mget, mset, deposit, hA]

/-- C158 is not true of the money on the chain: for any amounts there are calls after which the vouchers given out for a channel are worth more than the
channel holds. -/
theorem C158_refuted (sign : Voucher → Option (List Char)) (hs : ∀ v, (sign v).isSome) (n : Nat) (r A1 A2 : List Char) (hA : A1 ≠ A2) (a b c : Nat) (hc : 0 < c) :
    ∃ h, Smooth h ∧ Executed h ∧ mget (run sign (newWorld (n + 1)) h).chain A2 = some b ∧ b < owed (run sign (newWorld (n + 1)) h).issued A2 [0] := by
  refine ⟨overlap r A1 A2 a b ++ [.topup r c, .go 1 A1, .go 1 A1, .go 0 A2, .go 0 A2, .pay r 0 (b + c)], ?_, ?_, ?_⟩
  · intro i hi; simp [overlap] at hi
  · intro i hi; simp [overlap] at hi
  · have he : run sign (newWorld (n + 1)) (overlap r A1 A2 a b ++ [.topup r c, .go 1 A1, .go 1 A1, .go 0 A2, .go 0 A2, .pay r 0 (b + c)]) =
        run sign (run sign (newWorld (n + 1)) (overlap r A1 A2 a b)) [.topup r c, .go 1 A1, .go 1 A1, .go 0 A2, .go 0 A2, .pay r 0 (b + c)] := by
      simp [run, List.foldl_append]
    rw [he, overlap_run _ _ _ _ _ _ _ hA]
    obtain ⟨t, ht⟩ := Option.isSome_iff_exists.1 (hs ⟨A2, b + c, 0, 0⟩)
    constructor
    · simp [run, step, start, mget, mset, deposit, pay, hA, ht]
    · simp [run, step, start, mget, mset, deposit, pay, hA, ht, owed, best, onLane, hc]

/-- Nor is what has been paid in always there to be paid out: after two overlapping top-ups for a recipient, nothing the client does can spend the first
one. -/
theorem C158_lost_refuted (sign : Voucher → Option (List Char)) (n : Nat) (r A1 A2 : List Char) (hA : A1 ≠ A2) (a b : Nat) :
    ∃ h, Smooth h ∧ Executed h ∧ (run sign (newWorld (n + 1)) h).tasks = [] ∧ mget (run sign (newWorld (n + 1)) h).chain A1 = some a ∧
      ∀ h', ∀ v ∈ (run sign (newWorld (n + 1)) (h ++ h')).issued, v.addr ≠ A1 := by
  have hrun : run sign (newWorld (n + 1)) (overlap r A1 A2 a b ++ [.go 0 A2]) = ⟨[(r, ⟨A2, b, 0, []⟩)], [], [(A1, a), (A2, b)], n + 3, []⟩ := by
    have he : run sign (newWorld (n + 1)) (overlap r A1 A2 a b ++ [.go 0 A2]) = run sign (run sign (newWorld (n + 1)) (overlap r A1 A2 a b)) [.go 0 A2] := by
      simp [run, List.foldl_append]
    rw [he, overlap_run _ _ _ _ _ _ _ hA]
    simp [run, step, mset]
  refine ⟨overlap r A1 A2 a b ++ [.go 0 A2], ?_, ?_, ?_, ?_, ?_⟩
  · intro i hi; simp [overlap] at hi
  · intro i hi; simp [overlap] at hi
  · rw [hrun]
  · rw [hrun]; simp [mget]
  · intro h' v hv
    have he : run sign (newWorld (n + 1)) ((overlap r A1 A2 a b ++ [.go 0 A2]) ++ h') = run sign (run sign (newWorld (n + 1)) (overlap r A1 A2 a b ++ [.go 0 A2])) h' := by
      simp [run, List.foldl_append]
    rw [he] at hv
    refine (Dead.run sign (ad := A1) ?_ h').none v hv
    rw [hrun]
    refine ⟨by simp [mget], by simp, fun r' cs hm => ?_, by simp⟩
    simp only [mget] at hm
    split at hm
    · cases hm; exact fun he => hA he.symm
    · cases hm

/-- Nor, for a caller that waits for every top-up: from any state in which a recipient has a channel and no top-up is under way, a top-up whose message
fails on the chain is recorded all the same, and the vouchers then given out are worth more than the channel holds. -/
theorem C158_failed_refuted (sign : Voucher → Option (List Char)) (hs : ∀ v, (sign v).isSome) (n : Nat) (h : List Event) (r : List Char) (cs : Chan)
    (hg : mget (run sign (newWorld n) h).mgr r = some cs) (ht : (run sign (newWorld n) h).tasks = []) (d : Nat)
    (hd : mget (run sign (newWorld n) h).chain cs.addr = some d) (lane : Nat) :
    ∃ h', Smooth h' ∧ Orderly sign (run sign (newWorld n) h) h' ∧ mget (run sign (newWorld n) (h ++ h')).chain cs.addr = some d ∧
      d < owed (run sign (newWorld n) (h ++ h')).issued cs.addr [lane] := by
  generalize hw : run sign (newWorld n) h = w at hg ht hd
  let a := d + 1 + cs.redeemed
  have hrun : run sign w [.topup r a, .go 0 [], .reject 0, .go 0 []] =
      { w with mgr := mset w.mgr r { cs with balance := cs.balance + a }, nonce := w.nonce + 1 } := by
    simp [run, step, start, ht, hg]
  have happ : ∀ h', run sign (newWorld n) (h ++ h') = run sign w h' := fun h' => by rw [← hw]; simp [run, List.foldl_append]
  have hpay : ∃ v, v.addr = cs.addr ∧ v.lane = lane ∧ d < v.amount ∧
      run sign w [.topup r a, .go 0 [], .reject 0, .go 0 [], .pay r lane (d + 1)] =
        { run sign w [.topup r a, .go 0 [], .reject 0, .go 0 [], .pay r lane (d + 1)] with chain := w.chain, issued := w.issued ++ [v] } := by
    have he : run sign w [.topup r a, .go 0 [], .reject 0, .go 0 [], .pay r lane (d + 1)] =
        step sign (run sign w [.topup r a, .go 0 [], .reject 0, .go 0 []]) (.pay r lane (d + 1)) := rfl
    rw [he, hrun]
    obtain ⟨t, hsg⟩ := Option.isSome_iff_exists.1 (hs ⟨cs.addr, ((mget cs.lanes lane).getD ⟨0, 0, []⟩).redeemed + (d + 1), lane, ((mget cs.lanes lane).getD ⟨0, 0, []⟩).nonce⟩)
    refine ⟨⟨cs.addr, ((mget cs.lanes lane).getD ⟨0, 0, []⟩).redeemed + (d + 1), lane, ((mget cs.lanes lane).getD ⟨0, 0, []⟩).nonce⟩, rfl, rfl, by dsimp only; omega, ?_⟩
    have hb : ¬ cs.balance + a < cs.redeemed + (d + 1) := by show ¬ cs.balance + (d + 1 + cs.redeemed) < _; omega
    simp only [step, pay, mget_mset_same, if_neg hb, hsg]
  obtain ⟨v, hv1, hv2, hv3, hv4⟩ := hpay
  refine ⟨[.topup r a, .go 0 [], .reject 0, .go 0 [], .pay r lane (d + 1)], ?_, ?_, ?_, ?_⟩
  · intro i hi; simp at hi
  · simp [Orderly, ht]
  · rw [happ, hv4]; exact hd
  · rw [happ, hv4]
    simp only [owed, List.map_cons, List.map_nil, List.sum_cons, List.sum_nil, Nat.add_zero]
    rw [best_append, if_pos ⟨hv1, hv2⟩]
    omega

/-- C158, for a caller that waits for a top-up before asking for another for the same recipient, on a chain that executes the messages it takes: vouchers
never exceed what the channel holds on the chain, whatever else fails on the way. -/
theorem C158_partial (sign : Voucher → Option (List Char)) (n : Nat) (h : List Event) (ho : Orderly sign (newWorld n) h) (hx : Executed h) (r : List Char) (cs : Chan)
    (hg : mget (run sign (newWorld n) h).mgr r = some cs) (lanes : List Nat) (hn : lanes.Nodup) :
    ∃ d, mget (run sign (newWorld n) h).chain cs.addr = some d ∧ owed (run sign (newWorld n) h).issued cs.addr lanes ≤ d := by
  have hI := (Inv.init n).run sign h
  have hF := (Fund.init (· ≤ ·) n).run (· ≤ ·) Nat.le_refl (fun b a d hh => Nat.add_le_add_right hh a) sign (Inv.init n) h (Or.inr fun b a d hh => by omega) hx ho
  have hw := Nat.le_trans ((hI.booked r cs hg).total lanes hn) (hI.booked r cs hg).within
  obtain ⟨d, hd⟩ := Option.isSome_iff_exists.1 (hI.real r cs hg)
  refine ⟨d, hd, Nat.le_trans hw ?_⟩
  by_cases hu : ∃ a ad, .updated r a ad ∈ (run sign (newWorld n) h).tasks
  · obtain ⟨a, ad, hu⟩ := hu
    obtain ⟨c, h1, h2, h3⟩ := hF.updated r a ad hu
    rw [hg] at h1
    cases h1
    rw [← h2, hd] at h3
    simp only [Option.getD_some] at h3
    omega
  · have := hF.idle r cs hg fun a ad hh => hu ⟨a, ad, hh⟩
    rw [hd] at this
    exact this

/-- And when, besides, nothing fails: once no top-up is under way, every channel there is on the chain is some recipient's, with all it holds recorded as
the balance that `pay` spends. -/
theorem C158_all_partial (sign : Voucher → Option (List Char)) (n : Nat) (h : List Event) (ho : Orderly sign (newWorld n) h) (hs : Smooth h) (hx : Executed h)
    (ht : (run sign (newWorld n) h).tasks = []) (ad : List Char) (d : Nat) (hd : mget (run sign (newWorld n) h).chain ad = some d) :
    ∃ r cs, mget (run sign (newWorld n) h).mgr r = some cs ∧ cs.addr = ad ∧ cs.balance = d := by
  have hF := (Fund.init Eq n).run Eq (fun _ => rfl) (fun b a d hh => by rw [hh]) sign (Inv.init n) h (Or.inl hs) hx ho
  have hK : Kept (run sign (newWorld n) h) := Kept.run sign (Inv.init n) (Fund.init Eq n) (fun ad hh => by simp [newWorld, mget] at hh) h hs hx ho
  rcases hK ad (by rw [hd]; rfl) with ⟨r, cs, h1, h2⟩ | ⟨r, a, h1⟩
  · refine ⟨r, cs, h1, h2, ?_⟩
    have := hF.idle r cs h1 (by rw [ht]; simp)
    rw [h2, hd] at this
    exact this
  · rw [ht] at h1; simp at h1

/-- C159 is not true of a new wallet: as long as nobody else sends a message from it, no channel is ever made and no voucher ever given out, whatever the
client calls. -/
theorem C159_refuted (sign : Voucher → Option (List Char)) (h : List Event) (ha : Alone h) :
    (run sign (newWorld 0) h).chain = [] ∧ (run sign (newWorld 0) h).issued = [] ∧
    ∀ r lane amount, (pay sign (run sign (newWorld 0) h).mgr r lane amount).2 = .topup := by
  have hU : Unused (run sign (newWorld 0) h) := Unused.run sign ⟨rfl, rfl, rfl, rfl, by simp [newWorld]⟩ h ha
  refine ⟨hU.chain, hU.issued, fun r lane amount => ?_⟩
  unfold pay
  rw [hU.mgr]
  rfl

/-- C159, for a wallet that has sent a message: once a recipient without a channel has been topped up, it can be paid up to that amount. -/
theorem C159_partial (sign : Voucher → Option (List Char)) (w : World) (hn : w.nonce ≠ 0) (ht : w.tasks = []) (r ad : List Char) (hr : mget w.mgr r = none)
    (had : mget w.chain ad = none) (a : Nat) (lane amount : Nat) :
    (amount ≤ a → (sign ⟨ad, amount, lane, 0⟩).isSome →
      ∃ m text, pay sign (run sign w [.topup r a, .go 0 ad, .go 0 ad, .go 0 ad]).mgr r lane amount = (m, .paid ad text ⟨ad, amount, lane, 0⟩)) ∧
    (a < amount → (pay sign (run sign w [.topup r a, .go 0 ad, .go 0 ad, .go 0 ad]).mgr r lane amount).2 = .topup) := by
  have hrun : (run sign w [.topup r a, .go 0 ad, .go 0 ad, .go 0 ad]).mgr = mset w.mgr r ⟨ad, a, 0, []⟩ := by
    simp [run, step, start, ht, hr, hn, had]
  rw [hrun]
  constructor
  · intro hle hs
    obtain ⟨t, hsg⟩ := Option.isSome_iff_exists.1 hs
    unfold pay
    rw [mget_mset_same]
    have : ¬ a < 0 + amount := by omega
    simp only [mget, Option.getD_none, Nat.zero_add, hsg]
    rw [if_neg (by omega)]
    exact ⟨_, _, rfl⟩
  · intro hlt
    unfold pay
    rw [mget_mset_same]
    dsimp only
    rw [if_pos (by omega)]

/-- A history that meets all the conditions: two recipients, a second top-up, payments on two lanes. -/
def exHistory : List Event :=
  [.topup ['a'] 10, .topup ['b'] 5, .go 0 ['X'], .go 0 ['X'], .go 1 ['Y'], .go 1 ['Y'], .go 0 ['X'], .pay ['a'] 0 3, .go 0 ['Y'],
    .topup ['a'] 7, .pay ['a'] 1 4, .go 0 [], .go 0 [], .go 0 [], .pay ['a'] 0 6, .pay ['b'] 0 9]

def exSign : Voucher → Option (List Char) := fun v => some ('+' :: v.addr ++ ['/', '='])

/-- One character. -/
def swap (c : Char) : Char := if c = '+' then '-' else if c = '/' then '_' else c

theorem urlSafe_cons {c : Char} (l : List Char) (h : swap c ≠ '=') : urlSafe (c :: l) = swap c :: urlSafe l := by
  have key (x : Char) (m : List Char) (hx : x ≠ '=') : ((x :: m).reverse.dropWhile (· == '=')).reverse = x :: (m.reverse.dropWhile (· == '=')).reverse := by
    rw [List.reverse_cons, List.dropWhile_append]
    cases he : (m.reverse.dropWhile (· == '=')).isEmpty with
    | true =>
      have : m.reverse.dropWhile (· == '=') = [] := List.isEmpty_iff.1 he
      simp [this, hx]
    | false => simp
  exact key (swap c) (l.map swap) h

theorem swap_char : ∀ n, n < 64 → swap (b64Char n) = urlChar n ∧ urlChar n ≠ '=' := by decide +kernel

theorem urlSafe_char {n : Nat} (h : n < 64) (l : List Char) : urlSafe (b64Char n :: l) = urlChar n :: urlSafe l := by
  rw [urlSafe_cons l (by rw [(swap_char n h).1]; exact (swap_char n h).2), (swap_char n h).1]

/-- C158: the text of a voucher that the signing library has written in base64 is the one Lotus reads, for all its bytes. -/
theorem C158_text : ∀ b : Bytes, urlSafe (b64Encode b) = rawUrl b
  | [] => rfl
  | [a] => by
    have ha : a.toNat < 256 := a.toNat_lt
    rw [b64Encode, urlSafe_char (by omega), urlSafe_char (by omega)]
    rfl
  | [a, b] => by
    have ha : a.toNat < 256 := a.toNat_lt
    have hb : b.toNat < 256 := b.toNat_lt
    rw [b64Encode, urlSafe_char (by omega), urlSafe_char (by omega), urlSafe_char (by omega)]
    rfl
  | a :: b :: c :: r => by
    have ha : a.toNat < 256 := a.toNat_lt
    have hb : b.toNat < 256 := b.toNat_lt
    have hc : c.toNat < 256 := c.toNat_lt
    rw [b64Encode, urlSafe_char (by omega), urlSafe_char (by omega), urlSafe_char (by omega), urlSafe_char (by omega), C158_text r, rawUrl]

example : rawUrl [251, 255, 3, 7] = "-_8DBw".toList ∧ urlSafe "+/8DBw==".toList = "-_8DBw".toList := by decide +kernel

example : Orderly exSign (newWorld 1) exHistory ∧ Smooth exHistory ∧ Executed exHistory ∧ (run exSign (newWorld 1) exHistory).tasks = [] := by
  refine ⟨?_, ?_, ?_, by decide +kernel⟩
  · simp [Orderly, exHistory, step, newWorld, start, mget, mset, deposit, pay, exSign, Task.recipient]
  · intro i hi; simp [exHistory] at hi
  · intro i hi; simp [exHistory] at hi

example : (mget (run exSign (newWorld 1) exHistory).mgr ['b']).map (fun cs => (cs.addr, mget (run exSign (newWorld 1) exHistory).chain cs.addr)) = some (['Y'], some 5) := by
  decide +kernel

example : (run exSign (newWorld 1) exHistory).issued.map (fun v => (v.addr, v.lane, v.nonce, v.amount)) =
    [(['X'], 0, 0, 3), (['X'], 1, 0, 4), (['X'], 0, 1, 9)] := by decide +kernel

example : ((mget (run exSign (newWorld 1) exHistory).mgr ['a']).map fun cs => (cs.addr, cs.balance, cs.redeemed)) = some (['X'], 17, 13) := by decide +kernel
example : mget (run exSign (newWorld 1) exHistory).chain ['X'] = some 17 ∧ owed (run exSign (newWorld 1) exHistory).issued ['X'] [0, 1] = 13 := by decide +kernel
example : urlSafe ['a', '+', '=', '/', '=', '='] = ['a', '-', '=', '_'] := by decide +kernel
example : (newWorld 1).nonce ≠ 0 ∧ mget (newWorld 1).mgr ['a'] = none := by decide
example : Alone exHistory ∧ exHistory.length = 16 := by simp [Alone, exHistory]

end FcRetrieval.JsPay
