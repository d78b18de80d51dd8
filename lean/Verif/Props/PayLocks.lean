import Verif.Spec.RWLock
import Verif.Spec.PayLocks
import Verif.Lemmas.RWPark
set_option linter.unusedSimpArgs false
/-!
# C181: payments that overlap, while one of them waits for the chain
-/

namespace FcRetrieval.PayLocks
open FcRetrieval.RWLock

/-- The order in which locks are taken. -/
def rank : Lock → Nat
  | .outbound => 0
  | .outCh _ => 1
  | .inbound => 0
  | .inCh _ => 1

theorem call_disciplined (k : Call) : Disciplined rank (fun _ => false) [] k.ops = true := by
  cases k <;> simp [Call.ops, topupNew, topupKnown, payUnknown, payKnown, receiveNew, receiveKnown, Disciplined, rank]

theorem good_threads (cs : List (List Call)) : ∀ t ∈ threads cs, Good rank (fun _ => false) t := by
  intro t ht
  obtain ⟨c, _, rfl⟩ := List.mem_map.1 ht
  exact good_begin (disciplined_flatMap (fun k _ => call_disciplined k))

/-- **C181 (no deadlock).** However top-ups, payments and receipts of one payment manager overlap: as long as the chain answers, all of
them return, after a bounded number of steps, with no lock left behind; and no two of them are under the same lock when one of them
may write. -/
theorem C181_completes (cs : List (List Call)) :
    AlwaysCompletes (threads cs) ∧
    ∀ sched s', run (threads cs) sched = some s' → Exclusive s' ∧ ∀ t ∈ s', t.todo = [] → t.held = [] := by
  refine ⟨disciplined_completes (good_threads cs), fun sched s' hrun => ⟨?_, fun t ht h0 => ?_⟩⟩
  · refine exclusive_run ?_ hrun
    intro t ht
    obtain ⟨c, _, rfl⟩ := List.mem_map.1 ht
    exact ⟨_, rfl⟩
  · have := (good_run (good_threads cs) hrun t ht).disciplined
    rw [h0] at this
    simpa [Disciplined] using this

theorem clear_calls {a b : Call} (h : ¬ Clash a b) : Clear a.ops b.ops := by
  intro l
  cases a <;> cases b <;> cases l <;>
    simp [Clash, Call.pays, Call.opens, Call.channel, Call.ops, topupNew, topupKnown, payUnknown, payKnown, receiveNew, receiveKnown] at h ⊢
  all_goals
    try (intro h1 h2; exact h (h1.symm.trans h2))
    try (intro h1 h2; exact h (by omega))

theorem clear_flatMap {as bs : List Call} (h : ∀ a ∈ as, ∀ b ∈ bs, ¬ Clash a b) : Clear (as.flatMap Call.ops) (bs.flatMap Call.ops) := by
  intro l
  constructor
  · intro h1
    obtain ⟨a, ha, hl⟩ := List.mem_flatMap.1 h1
    constructor
    · intro h2
      obtain ⟨b, hb, hl2⟩ := List.mem_flatMap.1 h2
      exact ((clear_calls (h a ha b hb) l).1 hl).1 hl2
    · intro h2
      obtain ⟨b, hb, hl2⟩ := List.mem_flatMap.1 h2
      exact ((clear_calls (h a ha b hb) l).1 hl).2 hl2
  · intro h1 h2
    obtain ⟨a, ha, hl⟩ := List.mem_flatMap.1 h1
    obtain ⟨b, hb, hl2⟩ := List.mem_flatMap.1 h2
    exact (clear_calls (h a ha b hb) l).2 hl hl2

theorem map_pred {sched : List Nat} (h : 0 ∉ sched) : ∃ sched' : List Nat, sched = sched'.map (· + 1) := by
  induction sched with
  | nil => exact ⟨[], rfl⟩
  | cons i is ih =>
    obtain ⟨is', rfl⟩ := ih (fun h1 => h (by simp [h1]))
    cases i with
    | zero => exact absurd (by simp) h
    | succ i => exact ⟨i :: is', rfl⟩

/-- **C181 (partial).** A caller may rest wherever it is, in particular while it waits for the chain with its locks held: others go on
and finish, as long as they do not clash with its calls: they pay while it receives or the other way round, or they use other channels,
and neither side opens one.
Missing: a top-up to a new recipient, and the first voucher of a channel (`C181_new_recipient_refuted`, `C181_known_recipient_refuted`,
`C181_first_voucher_refuted`). -/
theorem C181_others_go_on_partial (ws : List Call) (cs : List (List Call)) (h : ∀ a ∈ ws, ∀ c ∈ cs, ∀ b ∈ c, ¬ Clash a b)
    (sched : List Nat) (s : List (Thread Lock)) (hrun : run (threads (ws :: cs)) sched = some s) : OthersComplete s := by
  have hlen := run_length hrun
  have hgood := good_run (good_threads (ws :: cs)) hrun
  let f : Nat → List (Op Lock) := fun j => (cs[j]?.getD []).flatMap Call.ops
  let g : Nat → List (Op Lock) := fun j => match j with | 0 => ws.flatMap Call.ops | j + 1 => f j
  have hfrom : ∀ j t, (threads (ws :: cs))[j]? = some t → From (g j) t := by
    intro j t hj
    cases j with
    | zero =>
      simp [threads] at hj
      subst hj
      exact from_begin _
    | succ j =>
      simp [threads] at hj
      obtain ⟨c, hc, rfl⟩ := hj
      show From ((cs[j]?.getD []).flatMap Call.ops) _
      rw [hc]
      exact from_begin _
  have hfrom := from_run hfrom hrun
  cases s with
  | nil => simp [threads] at hlen
  | cons t0 s =>
    have h0 : From (ws.flatMap Call.ops) t0 := hfrom 0 t0 rfl
    have hs : ∀ j t, s[j]? = some t → From (f j) t := fun j t hj => hfrom (j + 1) t (by simpa using hj)
    have hc : ∀ i, Clear (ws.flatMap Call.ops) (f i) := by
      intro i
      show Clear (ws.flatMap Call.ops) ((cs[i]?.getD []).flatMap Call.ops)
      cases hi : cs[i]? with
      | none => intro l; simp
      | some c => exact clear_flatMap (fun a ha b hb => h a ha c (List.mem_of_getElem? hi) b hb)
    have hg : ∀ t ∈ s, Good rank (fun _ => false) t := fun t ht => hgood t (by simp [ht])
    obtain ⟨bound, hb⟩ := disciplined_completes hg
    refine ⟨bound, fun sched' s' hn hr => ?_⟩
    obtain ⟨sched', rfl⟩ := map_pred hn
    rw [run_park h0 hc hs] at hr
    obtain ⟨s1, hr1, rfl⟩ := Option.map_eq_some_iff.1 hr
    obtain ⟨h1, h2, sched2, s2, h3, h4⟩ := hb sched' s1 hr1
    have hs1 := from_run hs hr1
    refine ⟨by simpa using h1, fun hst j t hj => ?_, sched2.map (· + 1), t0 :: s2, by simp, ?_, ?_⟩
    · refine h2 (fun i => ?_) t (List.mem_of_getElem? (by simpa using hj))
      have := hst (i + 1) (by simp)
      rw [step_park h0 (hs1 i) (hc i)] at this
      simpa using this
    · rw [run_park h0 hc hs1, h3]; rfl
    · intro j t hj
      exact h4 t (List.mem_of_getElem? (by simpa using hj))

/-- A top-up of a known recipient, with payments to another one, a payment to a recipient without channel, and vouchers coming in. -/
example : ∀ a ∈ [Call.topupKnown 1, .payKnown 1], ∀ c ∈ [[Call.payKnown 2, .topupKnown 2], [.payUnknown], [.receiveNew, .receiveKnown 1]],
    ∀ b ∈ c, ¬ Clash a b := by
  intro a ha c hc b hb
  simp at ha hc
  rcases ha with rfl | rfl <;> rcases hc with rfl | rfl | rfl <;> simp at hb <;> (try rcases hb with rfl | rfl) <;> (try subst hb) <;>
    simp [Clash, Call.pays, Call.opens, Call.channel]

/-- And the schedule that brings it to the wait for the receipt. -/
example : ∃ t s, run (threads [[.topupKnown 1], [.payKnown 2]]) [0, 0, 0, 0] = some (t :: s) ∧
    t.todo = [.work, .unlock (.outCh 1), .runlock .outbound] ∧ t.held = [(.outCh 1, true), (.outbound, false)] := by
  refine ⟨_, _, rfl, rfl, rfl⟩

theorem fresh (cs : List (List Call)) : ∀ x ∈ threads cs, x.held = [] ∧ x.waiting = false := by
  intro t ht
  obtain ⟨c, _, rfl⟩ := List.mem_map.1 ht
  exact ⟨rfl, rfl⟩

theorem nobody (cs : List (List Call)) (l : Lock) :
    ¬ ∃ x, x ∈ threads cs ∧ ((l, true) ∈ x.held ∨ x.waiting = true ∧ x.todo.head? = some (Op.lock l)) := by
  rintro ⟨x, hx, h | h⟩ <;> simp [fresh cs x hx] at h

theorem nobody' (cs : List (List Call)) (l : Lock) : ¬ ∃ x, x ∈ threads cs ∧ ((l, true) ∈ x.held ∨ (l, false) ∈ x.held) := by
  rintro ⟨x, hx, h⟩; simp [fresh cs x hx] at h

theorem pays_rlock {k : Call} (h : k.pays = true) : .rlock .outbound ∈ k.ops := by
  cases k <;> simp [Call.pays] at h <;> simp [Call.ops, topupNew, topupKnown, payUnknown, payKnown]

theorem receives_rlock {k : Call} (h : k.pays = false) : .rlock .inbound ∈ k.ops := by
  cases k <;> simp [Call.pays] at h <;> simp [Call.ops, receiveNew, receiveKnown]

/-- The first thread waits for the chain under the write lock. -/
theorem heldUp_written {l : Lock} {t0 : Thread Lock} (hm : (l, true) ∈ t0.held) {cs : List (List Call)} {j : Nat} {c : List Call}
    (hj : cs[j]? = some c) (hc : .rlock l ∈ c.flatMap Call.ops) : HeldUp (t0 :: threads cs) (j + 1) := by
  intro sched s' hn hr
  obtain ⟨_, h2⟩ := written_stays hm hn (i := 0) rfl hr
  obtain ⟨u, h3, h4⟩ := h2 (j + 1) (begin_ (c.flatMap Call.ops)) (by simp [threads, hj])
  refine ⟨u, h3, fun h0 => ?_⟩
  rw [h0] at h4
  have : 0 < (c.flatMap Call.ops).count (.rlock l) := List.count_pos_iff.2 hc
  simp only [begin_, List.count_nil] at h4
  omega

/-- **C181 (refuted): a new recipient.** While a top-up to a new recipient waits for its receipt, no other top-up and no payment returns,
whoever it is to. -/
theorem C181_new_recipient_refuted (cs : List (List Call)) :
    ∃ t, run (threads ([.topupNew] :: cs)) [0, 0, 0, 0, 0] = some (t :: threads cs) ∧ t.todo = [.work, .unlock .outbound] ∧
      ∀ j c, cs[j]? = some c → (∃ k ∈ c, k.pays = true) → HeldUp (t :: threads cs) (j + 1) := by
  refine ⟨{ todo := [.work, .unlock .outbound], held := [(.outbound, true)], waiting := false }, ?_, rfl, fun j c hj hk => ?_⟩
  · rw [show threads ([.topupNew] :: cs) = begin_ topupNew :: threads cs by simp [threads, Call.ops]]
    simp [run, step, begin_, topupNew, nobody, nobody', Thread.writes, Thread.announced, Thread.holds]
  · obtain ⟨k, hk, hp⟩ := hk
    exact heldUp_written (by simp) hj (List.mem_flatMap.2 ⟨k, hk, pays_rlock hp⟩)

/-- **C181 (refuted): a known recipient.** While a top-up to a known recipient waits for its receipt, one attempt to top up a new one is
enough: from then on no payment and no top-up returns, whoever it is to. -/
theorem C181_known_recipient_refuted (r : Nat) (cs : List (List Call)) :
    ∃ t w, run (threads ([.topupKnown r] :: [.topupNew] :: cs)) [0, 0, 0, 0, 1, 1, 1, 1] = some (t :: w :: threads cs) ∧
      t.todo = [.work, .unlock (.outCh r), .runlock .outbound] ∧ HeldUp (t :: w :: threads cs) 1 ∧
      ∀ j c, cs[j]? = some c → (∃ k ∈ c, k.pays = true) → HeldUp (t :: w :: threads cs) (j + 2) := by
  refine ⟨{ todo := [.work, .unlock (.outCh r), .runlock .outbound], held := [(.outCh r, true), (.outbound, false)], waiting := false },
    { todo := [.lock .outbound, .work, .unlock .outbound], held := [], waiting := true }, ?_, rfl, ?_, fun j c hj hk => ?_⟩
  · rw [show threads ([.topupKnown r] :: [.topupNew] :: cs) = begin_ (topupKnown r) :: begin_ topupNew :: threads cs by simp [threads, Call.ops]]
    simp [run, step, begin_, topupNew, topupKnown, nobody, nobody', Thread.writes, Thread.announced, Thread.holds]
  · intro sched s' hn hr
    obtain ⟨_, h2, _⟩ := announced_stays (l := Lock.outbound) (by simp) (by simp [Thread.announced]) hn (i := 0) (k := 1) rfl rfl hr
    exact ⟨_, h2, by simp⟩
  · intro sched s' hn hr
    obtain ⟨k, hk, hp⟩ := hk
    obtain ⟨_, _, h2⟩ := announced_stays (l := Lock.outbound) (by simp) (by simp [Thread.announced]) hn (i := 0) (k := 1) rfl rfl hr
    obtain ⟨u, h3, h4⟩ := h2 (j + 2) (begin_ (c.flatMap Call.ops)) (by simp [threads, hj])
    refine ⟨u, h3, fun h0 => ?_⟩
    rw [h0] at h4
    have : 0 < (c.flatMap Call.ops).count (.rlock .outbound) := List.count_pos_iff.2 (List.mem_flatMap.2 ⟨k, hk, pays_rlock hp⟩)
    simp only [begin_, List.count_nil] at h4
    omega

/-- **C181 (refuted): a first voucher.** While the first voucher of a channel waits for the chain's answer about the channel's parties, no
other voucher is taken in, whichever channel it is of. -/
theorem C181_first_voucher_refuted (cs : List (List Call)) :
    ∃ t, run (threads ([.receiveNew] :: cs)) [0, 0, 0, 0, 0, 0] = some (t :: threads cs) ∧ t.todo = [.work, .unlock .inbound] ∧
      ∀ j c, cs[j]? = some c → (∃ k ∈ c, k.pays = false) → HeldUp (t :: threads cs) (j + 1) := by
  refine ⟨{ todo := [.work, .unlock .inbound], held := [(.inbound, true)], waiting := false }, ?_, rfl, fun j c hj hk => ?_⟩
  · rw [show threads ([.receiveNew] :: cs) = begin_ receiveNew :: threads cs by simp [threads, Call.ops]]
    simp [run, step, begin_, receiveNew, nobody, nobody', Thread.writes, Thread.announced, Thread.holds]
  · obtain ⟨k, hk, hp⟩ := hk
    exact heldUp_written (by simp) hj (List.mem_flatMap.2 ⟨k, hk, receives_rlock hp⟩)

/-- A payment to somebody who has a channel is among those held up. -/
example : ∃ k ∈ [Call.payKnown 7], k.pays = true := ⟨.payKnown 7, by simp, rfl⟩

end FcRetrieval.PayLocks
