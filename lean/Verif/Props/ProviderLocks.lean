import Verif.Spec.RWLock
import Verif.Spec.ProviderLocks
import Verif.Lemmas.RWHeld
import Verif.Lemmas.RWRest
set_option linter.unusedSimpArgs false
/-!
# C187: a provider whose gateways, clients or admin are slow
-/

namespace FcRetrieval.ProviderLocks
open FcRetrieval.RWLock

/-- The order in which locks are taken. -/
def rank : Lock → Nat
  | .offers => 0
  | .acks => 1

theorem flatten_replicate_disciplined {ops : List (Op Lock)} (h : Disciplined rank (fun _ => false) [] ops = true) (n : Nat) :
    Disciplined rank (fun _ => false) [] (List.replicate n ops).flatten = true := by
  have := disciplined_flatMap (rank := rank) (free := fun _ => false) (f := fun _ : Nat => ops) (l := List.replicate n 0) (fun _ _ => h)
  simpa [List.flatMap_replicate] using this

theorem request_disciplined (r : Request) : Disciplined rank (fun _ => false) [] r.ops = true := by
  cases r with
  | publishDht n => exact flatten_replicate_disciplined (by simp [recordOffer, Disciplined, rank]) n
  | list n => exact flatten_replicate_disciplined (by simp [recordListed, Disciplined, rank]) n
  | publishGroup => simp [Request.ops, Disciplined, rank]
  | publishFails => simp [Request.ops, Disciplined, rank]
  | published => simp [Request.ops, Disciplined, rank]
  | ask => simp [Request.ops, Disciplined, rank]

theorem good_threads (rs : List (List Request)) : ∀ t ∈ threads rs, Good rank (fun _ => false) t := by
  intro t ht
  obtain ⟨c, _, rfl⟩ := List.mem_map.1 ht
  exact good_begin (disciplined_flatMap (fun k _ => request_disciplined k))

/-- **C187 (no deadlock).** However requests overlap: as long as gateways answer and answers are read, all of them are handled, after a bounded number of
steps, with no lock left behind; and no two of them are under the same lock when one of them may write. -/
theorem C187_completes (rs : List (List Request)) :
    AlwaysCompletes (threads rs) ∧
    ∀ sched s', run (threads rs) sched = some s' → Exclusive s' ∧ ∀ t ∈ s', t.todo = [] → t.held = [] := by
  refine ⟨disciplined_completes (good_threads rs), fun sched s' hrun => ⟨?_, fun t ht h0 => ?_⟩⟩
  · refine exclusive_run ?_ hrun
    intro t ht
    obtain ⟨c, _, rfl⟩ := List.mem_map.1 ht
    exact ⟨_, rfl⟩
  · have := (good_run (good_threads rs) hrun t ht).disciplined
    rw [h0] at this
    simpa [Disciplined] using this

theorem map_pred {sched : List Nat} (h : 0 ∉ sched) : ∃ sched' : List Nat, sched = sched'.map (· + 1) := by
  induction sched with
  | nil => exact ⟨[], rfl⟩
  | cons i is ih =>
    obtain ⟨is', rfl⟩ := ih (fun h1 => h (by simp [h1]))
    cases i with
    | zero => exact absurd (by simp) h
    | succ i => exact ⟨i :: is', rfl⟩

/-- If the others' steps are those they would make without the first thread, they finish. -/
theorem others_complete {t0 : Thread Lock} {s : List (Thread Lock)} (hg : ∀ t ∈ s, Good rank (fun _ => false) t)
    (hrun : ∀ sched s', run s sched = some s' → (∀ i, step (t0 :: s') (i + 1) = (step s' i).map (t0 :: ·)) ∧
      ∀ sched', run (t0 :: s') (sched'.map (· + 1)) = (run s' sched').map (t0 :: ·)) : OthersComplete (t0 :: s) := by
  obtain ⟨bound, hb⟩ := disciplined_completes hg
  refine ⟨bound, fun sched' s' hn hr => ?_⟩
  obtain ⟨sched', rfl⟩ := map_pred hn
  rw [(hrun [] s rfl).2] at hr
  obtain ⟨s1, hr1, rfl⟩ := Option.map_eq_some_iff.1 hr
  obtain ⟨h1, h2, sched2, s2, h3, h4⟩ := hb sched' s1 hr1
  refine ⟨by simpa using h1, fun hst j t hj => ?_, sched2.map (· + 1), t0 :: s2, by simp, ?_, ?_⟩
  · refine h2 (fun i => ?_) t (List.mem_of_getElem? (by simpa using hj))
    have := hst (i + 1) (by simp)
    rw [(hrun _ _ hr1).1] at this
    simpa using this
  · rw [(hrun _ _ hr1).2, h3]; rfl
  · intro j t hj
    exact h4 t (List.mem_of_getElem? (by simpa using hj))

/-- **C187 (gateways).** Whatever has happened: while somebody waits for a gateway, everybody else's requests, of every kind, are handled to the end. -/
theorem C187_gateway (rs : List (List Request)) (sched : List Nat) (t : Thread Lock) (s : List (Thread Lock))
    (hrun : run (threads rs) sched = some (t :: s)) (hat : AtGateway t) : OthersComplete (t :: s) := by
  have hgood := good_run (good_threads rs) hrun
  obtain ⟨r, l, hr, htodo⟩ := hat
  have ht := hgood t (by simp)
  have hheld : t.held = [] := by
    have h1 := balance ht.disciplined
    have h2 : Disciplined rank (fun _ => false) [] t.todo = true := by
      rw [htodo]
      exact disciplined_append (request_disciplined r) (disciplined_flatMap fun k _ => request_disciplined k)
    have h2 := balance h2
    simp only [List.length_nil] at h2
    exact List.length_eq_zero_iff.1 (by omega)
  have hwait : t.waiting = false := by
    cases hw : t.waiting with
    | false => rfl
    | true =>
      obtain ⟨l', r', h1⟩ := ht.waits hw
      rw [htodo] at h1
      cases r <;> simp [Request.talks, Request.ops] at hr h1
  exact others_complete (fun u hu => hgood u (by simp [hu])) fun sched s' _ => ⟨fun i => step_rest hheld hwait, fun sched' => run_rest hheld hwait⟩

/-- A publication has been sent and the gateway says nothing; another is being recorded. -/
example : ∃ t s, run (threads [[.publishDht 2], [.publishDht 1, .ask]]) [1, 1, 1] = some (t :: s) ∧ AtGateway t ∧ s.map (·.held) = [[(.offers, true)]] :=
  ⟨_, _, rfl, ⟨.publishDht 2, [], rfl, by decide⟩, rfl⟩

theorem mem_flatten_replicate {n : Nat} {l : List (Op Lock)} {op : Op Lock} : op ∈ (List.replicate n l).flatten ↔ 0 < n ∧ op ∈ l := by
  simp only [List.mem_flatten, List.mem_replicate]
  constructor
  · rintro ⟨x, ⟨h1, rfl⟩, h2⟩; exact ⟨by omega, h2⟩
  · rintro ⟨h1, h2⟩; exact ⟨l, ⟨by omega, rfl⟩, h2⟩

theorem locks_offers (r : Request) : .lock .offers ∈ r.ops ↔ r.usesOffers = true := by
  cases r <;> simp [-List.mem_flatten, Request.ops, Request.usesOffers, mem_flatten_replicate, recordOffer, recordListed]

theorem locks_acks (r : Request) : .lock .acks ∈ r.ops ↔ r.acknowledges = true := by
  cases r <;> simp [-List.mem_flatten, Request.ops, Request.acknowledges, mem_flatten_replicate, recordOffer, recordListed]

theorem reads_acks (r : Request) : .rlock .acks ∈ r.ops ↔ r.inquires = true := by
  cases r <;> simp [-List.mem_flatten, Request.ops, Request.inquires, mem_flatten_replicate, recordOffer, recordListed]

theorem reads_offers (r : Request) : .rlock .offers ∉ r.ops := by
  cases r <;> simp [-List.mem_flatten, Request.ops, mem_flatten_replicate, recordOffer, recordListed]

theorem clear_requests {a b : Request} (h : ¬ Clash a b) : Clear a.ops b.ops := by
  unfold Clash at h
  intro l
  cases l with
  | offers =>
    refine ⟨fun h1 => ⟨reads_offers b, fun h2 => ?_⟩, fun h1 => absurd h1 (reads_offers a)⟩
    exact h (Or.inl ⟨(locks_offers a).1 h1, (locks_offers b).1 h2⟩)
  | acks =>
    refine ⟨fun h1 => ⟨fun h2 => ?_, fun h2 => ?_⟩, fun h1 h2 => ?_⟩
    · exact h (Or.inr (Or.inl ⟨(locks_acks a).1 h1, Or.inr ((reads_acks b).1 h2)⟩))
    · exact h (Or.inr (Or.inl ⟨(locks_acks a).1 h1, Or.inl ((locks_acks b).1 h2)⟩))
    · exact h (Or.inr (Or.inr ⟨(reads_acks a).1 h1, (locks_acks b).1 h2⟩))

theorem clear_flatMap {as bs : List Request} (h : ∀ a ∈ as, ∀ b ∈ bs, ¬ Clash a b) : Clear (as.flatMap Request.ops) (bs.flatMap Request.ops) := by
  intro l
  constructor
  · intro h1
    obtain ⟨a, ha, hl⟩ := List.mem_flatMap.1 h1
    constructor
    · intro h2
      obtain ⟨b, hb, hl2⟩ := List.mem_flatMap.1 h2
      exact ((clear_requests (h a ha b hb) l).1 hl).1 hl2
    · intro h2
      obtain ⟨b, hb, hl2⟩ := List.mem_flatMap.1 h2
      exact ((clear_requests (h a ha b hb) l).1 hl).2 hl2
  · intro h1 h2
    obtain ⟨a, ha, hl⟩ := List.mem_flatMap.1 h1
    obtain ⟨b, hb, hl2⟩ := List.mem_flatMap.1 h2
    exact (clear_requests (h a ha b hb) l).2 hl hl2

/-- **C187 (partial).** A request may rest wherever it is, in particular while its answer is not read: the others are handled to the end, as long as they do
not clash with it.  So a client that does not read holds up no other clients, no group offers and no admin; an admin that does not read holds up no
clients and no gateways that ask for offers.
Missing: the requests that do clash (`C187_client_refuted`, `C187_admin_refuted`). -/
theorem C187_reader_partial (ws : List Request) (cs : List (List Request)) (h : ∀ a ∈ ws, ∀ c ∈ cs, ∀ b ∈ c, ¬ Clash a b)
    (sched : List Nat) (s : List (Thread Lock)) (hrun : run (threads (ws :: cs)) sched = some s) : OthersComplete s := by
  have hlen := run_length hrun
  have hgood := good_run (good_threads (ws :: cs)) hrun
  let f : Nat → List (Op Lock) := fun j => (cs[j]?.getD []).flatMap Request.ops
  let g : Nat → List (Op Lock) := fun j => match j with | 0 => ws.flatMap Request.ops | j + 1 => f j
  have hfrom : ∀ j t, (threads (ws :: cs))[j]? = some t → From (g j) t := by
    intro j t hj
    cases j with
    | zero =>
      simp [threads] at hj
      subst hj
      exact from_begin _
    | succ j =>
      simp [threads] at hj
      obtain ⟨c, hc, rfl⟩ := hj
      show From ((cs[j]?.getD []).flatMap Request.ops) _
      rw [hc]
      exact from_begin _
  have hfrom := from_run hfrom hrun
  cases s with
  | nil => simp [threads] at hlen
  | cons t0 s =>
    have h0 : From (ws.flatMap Request.ops) t0 := hfrom 0 t0 rfl
    have hs : ∀ j t, s[j]? = some t → From (f j) t := fun j t hj => hfrom (j + 1) t (by simpa using hj)
    have hc : ∀ i, Clear (ws.flatMap Request.ops) (f i) := by
      intro i
      show Clear (ws.flatMap Request.ops) ((cs[i]?.getD []).flatMap Request.ops)
      cases hi : cs[i]? with
      | none => intro l; simp
      | some c => exact clear_flatMap (fun a ha b hb => h a ha c (List.mem_of_getElem? hi) b hb)
    refine others_complete (fun t ht => hgood t (by simp [ht])) fun sched1 s1 hr1 => ?_
    have hs1 := from_run hs hr1
    exact ⟨fun i => step_park h0 (hs1 i) (hc i), fun sched' => run_park h0 hc hs1⟩

/-- Requests that do not clash with a client's, and with the admin's. -/
example : (∀ a ∈ [Request.ask], ∀ c ∈ [[Request.ask, .publishGroup], [.published]], ∀ b ∈ c, ¬ Clash a b) ∧
    (∀ a ∈ [Request.published], ∀ c ∈ [[Request.ask, .list 3], [.publishFails]], ∀ b ∈ c, ¬ Clash a b) := by
  simp [Clash, Request.usesOffers, Request.acknowledges, Request.inquires]

theorem fresh (cs : List (List Request)) : ∀ x ∈ threads cs, x.held = [] ∧ x.waiting = false := by
  intro t ht
  obtain ⟨c, _, rfl⟩ := List.mem_map.1 ht
  exact ⟨rfl, rfl⟩

theorem nobody (cs : List (List Request)) (l : Lock) :
    ¬ ∃ x, x ∈ threads cs ∧ ((l, true) ∈ x.held ∨ x.waiting = true ∧ x.todo.head? = some (Op.lock l)) := by
  rintro ⟨x, hx, h | h⟩ <;> simp [fresh cs x hx] at h

theorem nobody' (cs : List (List Request)) (l : Lock) : ¬ ∃ x, x ∈ threads cs ∧ ((l, true) ∈ x.held ∨ (l, false) ∈ x.held) := by
  rintro ⟨x, hx, h⟩; simp [fresh cs x hx] at h

theorem heldUp_of {s : List (Thread Lock)} {j : Nat} {c : List Request} {op : Op Lock}
    (hc : op ∈ c.flatMap Request.ops) (h : ∀ sched s', 0 ∉ sched → run s sched = some s' →
      ∃ u' : Thread Lock, s'[j]? = some u' ∧ u'.todo.count op = (begin_ (c.flatMap Request.ops)).todo.count op) : HeldUp s j := by
  intro sched s' hn hr
  obtain ⟨u, h3, h4⟩ := h sched s' hn hr
  refine ⟨u, h3, fun h0 => ?_⟩
  rw [h0] at h4
  have : 0 < (c.flatMap Request.ops).count op := List.count_pos_iff.2 hc
  simp only [begin_, List.count_nil] at h4
  omega

/-- **C187 (refuted): the admin.** While an admin does not read the list of published offers, no publication that a gateway has acknowledged is
reported, of DHT offers or of group offers, and no other list either. -/
theorem C187_admin_refuted (cs : List (List Request)) :
    ∃ t, run (threads ([.published] :: cs)) [0, 0, 0] = some (t :: threads cs) ∧ t.todo = [.work, .unlock .offers] ∧
      ∀ j c, cs[j]? = some c → (∃ k ∈ c, k.usesOffers = true) → HeldUp (t :: threads cs) (j + 1) := by
  refine ⟨{ todo := [.work, .unlock .offers], held := [(.offers, true)], waiting := false }, ?_, rfl, fun j c hj hk => ?_⟩
  · rw [show threads ([.published] :: cs) = begin_ (Request.ops .published) :: threads cs by simp [threads]]
    simp [run, step, begin_, Request.ops, nobody, nobody', Thread.writes, Thread.announced, Thread.holds]
  · obtain ⟨k, hk, hp⟩ := hk
    exact heldUp_of (List.mem_flatMap.2 ⟨k, hk, (locks_offers k).2 hp⟩)
      (fun sched s' hn hr => (held_stays (by simp [Thread.holds]) hn (i := 0) rfl hr).2 _ _ (by simp [threads, hj]))

/-- **C187 (refuted): any client.** While a client does not read the acknowledgement it has asked for, no publication of DHT offers that a gateway has
acknowledged is reported, and no listing to a gateway ends; and as soon as one of them waits, here a listing `.list (n + 1)`, no other client is answered
either. -/
theorem C187_client_refuted (n : Nat) (cs : List (List Request)) :
    ∃ t w, run (threads ([.ask] :: [.list (n + 1)] :: cs)) [0, 0, 1, 1] = some (t :: w :: threads cs) ∧
      t.todo = [.work, .runlock .acks] ∧ HeldUp (t :: w :: threads cs) 1 ∧
      ∀ j c, cs[j]? = some c → (∃ k ∈ c, k.acknowledges = true ∨ k.inquires = true) → HeldUp (t :: w :: threads cs) (j + 2) := by
  refine ⟨{ todo := [.work, .runlock .acks], held := [(.acks, false)], waiting := false },
    { todo := (List.replicate (n + 1) recordListed).flatten, held := [], waiting := true }, ?_, rfl, ?_, fun j c hj hk => ?_⟩
  · rw [show threads ([.ask] :: [.list (n + 1)] :: cs) = begin_ (Request.ops .ask) :: begin_ (Request.ops (.list (n + 1))) :: threads cs by simp [threads]]
    simp [run, step, begin_, Request.ops, recordListed, List.replicate_succ, nobody, nobody', Thread.writes, Thread.announced, Thread.holds]
  · intro sched s' hn hr
    obtain ⟨_, h2, _⟩ := announced_stays (l := Lock.acks) (by simp) (by simp [Thread.announced, List.replicate_succ, recordListed]) hn (i := 0) (k := 1) rfl rfl hr
    exact ⟨_, h2, by simp [List.replicate_succ, recordListed]⟩
  · obtain ⟨k, hk, hp⟩ := hk
    have hget : ∀ t0 w0 : Thread Lock, (t0 :: w0 :: threads cs)[j + 2]? = some (begin_ (c.flatMap Request.ops)) := fun t0 w0 => by simp [threads, hj]
    rcases hp with hp | hp
    · exact heldUp_of (List.mem_flatMap.2 ⟨k, hk, (locks_acks k).2 hp⟩)
        (fun sched s' hn hr => (held_stays (by simp [Thread.holds]) hn (i := 0) rfl hr).2 _ _ (hget _ _))
    · exact heldUp_of (List.mem_flatMap.2 ⟨k, hk, (reads_acks k).2 hp⟩) (fun sched s' hn hr =>
        (announced_stays (by simp) (by simp [Thread.announced, List.replicate_succ, recordListed]) hn (i := 0) (k := 1) rfl rfl hr).2.2 _ _ (hget _ _))

/-- Among those held up: a publication of one DHT offer, and another client. -/
example : (∃ k ∈ [Request.publishDht 1], k.acknowledges = true ∨ k.inquires = true) ∧ (∃ k ∈ [Request.ask], k.acknowledges = true ∨ k.inquires = true) ∧
    ∃ k ∈ [Request.publishDht 1], k.usesOffers = true := by simp [Request.acknowledges, Request.inquires, Request.usesOffers]

end FcRetrieval.ProviderLocks
