import Verif.Spec.GatewayConc
import Verif.Lemmas.GatewayConc
/-!
# The invariant of a gateway that serves requests at the same time
-/

set_option linter.unusedSimpArgs false

namespace FcRetrieval.Gateway.Conc
open FcRetrieval.Ids (Id)
open FcRetrieval.Message (Msg)
open FcRetrieval.Payment (Addr Voucher ChainView RecvOut Mgr inC)
open FcRetrieval.GatewayLife (carries)
open FcRetrieval.Codecs

variable {Sig : Type}

theorem paidOn_eq (c : Core Sig) (K : Addr) (lane : Nat) : paidOn c K lane = ((inC c.payment K).lane lane).redeemed := by
  unfold paidOn inC
  cases c.payment.inbound K with
  | none => simp [Payment.Chan.lane, Payment.newLane]
  | some s =>
    simp only [Payment.Chan.lane, Option.getD_some]
    cases s.lanes lane <;> simp [Payment.newLane]

theorem paidOn_inbound {c c' : Core Sig} {K : Addr} (h : c'.payment.inbound K = c.payment.inbound K) (lane : Nat) : paidOn c' K lane = paidOn c K lane := by
  unfold paidOn; rw [h]

/-- The entry is a voucher credited on a lane of channel `K`. -/
def Hit (E : Env Sig) (K : Addr) (lane : Nat) (e : Entry) (w : Voucher Sig) (a : Int) : Prop :=
  String.ofList e.channel = K ∧ E.readVoucher e.voucher = some w ∧ w.body.lane = lane ∧ e.out = .credited a

/-- A program that has not found its channel, which is not `K`, and is about to receive. -/
def Creating (sp : Int) (K : Addr) (need : Int → Prop) (ch v : List Char) : Prog Sig → Prop
  | .create c t _ _ k => c = ch ∧ t = v ∧ String.ofList c ≠ K ∧ (∀ a, After sp (need a) (k (.credited a))) ∧ After sp False (k .error) ∧ After sp False (k .panic)
  | _ => False

/-- What holds of a thread: it has not received, or it has and was credited, or it will disclose nothing. -/
def ThreadOk (sp : Int) (K : Addr) (log : List (Nat × Entry)) (i : Nat) (info : Option (Paid × List Char × List Char)) (p : Prog Sig) : Prop :=
  match info with
  | some (pd, ch, v) => Before sp (need sp pd) ch v p ∨ Creating sp K (need sp pd) ch v p ∨
      (∃ a, (i, ⟨ch, v, .credited a⟩) ∈ log ∧ After sp (need sp pd a) p) ∨ After sp False p
  | none => After sp False p

theorem ThreadOk.mono {sp : Int} {K : Addr} {log log' : List (Nat × Entry)} {i : Nat} {info : Option (Paid × List Char × List Char)} {p : Prog Sig}
    (h : ThreadOk sp K log i info p) (hl : ∀ e ∈ log, e ∈ log') : ThreadOk sp K log' i info p := by
  unfold ThreadOk at *
  split at h
  · rcases h with h | h | ⟨a, h1, h2⟩ | h
    · exact Or.inl h
    · exact Or.inr (Or.inl h)
    · exact Or.inr (Or.inr (Or.inl ⟨a, hl _ h1, h2⟩))
    · exact Or.inr (Or.inr (Or.inr h))
  · exact h

/-- What holds of the payments: the vouchers credited on a lane of channel `K` follow one another. -/
structure LogOk (E : Env Sig) (K : Addr) (c0 c : Core Sig) (log : List (Nat × Entry)) : Prop where
  mono : ∀ lane, paidOn c0 K lane ≤ paidOn c K lane
  pos : ∀ e ∈ log, ∀ lane w a, Hit E K lane e.2 w a → 0 < a ∧ paidOn c0 K lane + a ≤ w.body.amount ∧ w.body.amount ≤ paidOn c K lane
  apart : log.Pairwise fun new old => ∀ lane w w' a b, Hit E K lane new.2 w a → Hit E K lane old.2 w' b → w'.body.amount + a ≤ w.body.amount

theorem LogOk.same {E : Env Sig} {K : Addr} {c0 c c' : Core Sig} {log : List (Nat × Entry)} (h : LogOk E K c0 c log)
    (hi : c'.payment.inbound K = c.payment.inbound K) : LogOk E K c0 c' log :=
  ⟨fun lane => by rw [paidOn_inbound hi]; exact h.mono lane, fun e he lane w a hh => by rw [paidOn_inbound hi]; exact h.pos e he lane w a hh, h.apart⟩

theorem LogOk.away {E : Env Sig} {K : Addr} {c0 c : Core Sig} {log : List (Nat × Entry)} (h : LogOk E K c0 c log) (i : Nat) (e : Entry)
    (hne : ∀ lane w a, ¬ Hit E K lane e w a) : LogOk E K c0 c ((i, e) :: log) := by
  refine ⟨h.mono, ?_, List.Pairwise.cons ?_ h.apart⟩
  · intro e' he' lane w a hh
    rcases List.mem_cons.1 he' with rfl | he'
    · exact absurd hh (hne _ _ _)
    · exact h.pos e' he' lane w a hh
  · intro old _ lane w w' a b hw
    exact absurd hw (hne _ _ _)

/-- A `Receive` on channel `K`. -/
theorem LogOk.receive {E : Env Sig} {K : Addr} {c0 c c' : Core Sig} {log : List (Nat × Entry)} (h : LogOk E K c0 c log) (i : Nat) (e : Entry)
    (cv : Option ChainView) (hc : c'.payment = (Payment.receive E.verifyVoucher c.payment K (E.readVoucher e.voucher) cv).1)
    (ho : e.out = (Payment.receive E.verifyVoucher c.payment K (E.readVoucher e.voucher) cv).2) : LogOk E K c0 c' ((i, e) :: log) := by
  obtain ⟨-, ⟨a, w, cv', h1, h2, -, h4, h5, -, -, -, -, -, h9⟩ | ⟨h1, -, h3⟩⟩ := Payment.receive_spec E.verifyVoucher c.payment ⟨K, E.readVoucher e.voucher, cv⟩
  · simp only at h1 h2 h4 h9
    have hp : ∀ lane, paidOn c' K lane = if lane = w.body.lane then w.body.amount else paidOn c K lane := by
      intro lane
      rw [paidOn_eq, paidOn_eq, hc, h9 K lane]
      by_cases hl : lane = w.body.lane <;> simp [hl]
    have hhit : ∀ lane w' b, Hit E K lane e w' b → w' = w ∧ b = a ∧ lane = w.body.lane := by
      rintro lane w' b ⟨-, g2, g3, g4⟩
      rw [h2] at g2
      rw [ho, h1] at g4
      cases g2
      cases g4
      exact ⟨rfl, rfl, g3.symm⟩
    rw [← paidOn_eq] at h4
    refine ⟨fun lane => ?_, ?_, ?_⟩
    · rw [hp lane]
      have := h.mono lane
      split
      · rename_i hl
        subst hl
        omega
      · exact this
    · intro e' he' lane w' b hh
      rw [hp lane]
      rcases List.mem_cons.1 he' with rfl | he'
      · obtain ⟨rfl, rfl, rfl⟩ := hhit lane w' b hh
        have := h.mono w'.body.lane
        simp only [if_true]
        omega
      · obtain ⟨g1, g2, g3⟩ := h.pos e' he' lane w' b hh
        refine ⟨g1, g2, ?_⟩
        split
        · rename_i hl
          subst hl
          omega
        · exact g3
    · refine List.Pairwise.cons ?_ h.apart
      intro old hold lane w1 w2 a1 a2 g1 g2
      obtain ⟨rfl, rfl, rfl⟩ := hhit lane w1 a1 g1
      have := (h.pos old hold _ w2 a2 g2).2.2
      omega
  · simp only at h1 h3
    have hp : ∀ lane, paidOn c' K lane = paidOn c K lane := by
      intro lane
      rw [paidOn_eq, paidOn_eq, hc, h3 K lane]
    have hno : ∀ lane w' b, ¬ Hit E K lane e w' b := by
      rintro lane w' b ⟨-, -, -, g4⟩
      exact h1 b (by rw [← ho]; exact g4)
    have := h.away i e hno
    exact ⟨fun lane => by rw [hp]; exact this.mono lane, fun e he lane w a hh => by rw [hp]; exact this.pos e he lane w a hh, this.apart⟩

/-- The invariant. -/
structure SInv (E : Env Sig) (sp : Int) (K : Addr) (c0 : Core Sig) (info : Nat → Option (Paid × List Char × List Char)) (s : Sys Sig) : Prop where
  known : s.core.payment.inbound K ≠ none
  price : s.core.searchPrice = sp
  thr : ∀ (i : Nat) p, s.threads[i]? = some p → ThreadOk sp K s.log i (info i) p
  log : LogOk E K c0 s.core s.log

theorem receive_known {verify : Sig → Addr → Payment.VBody → Bool} {m : Mgr Sig} {x : Addr} {s : Payment.Chan Sig} {w : Voucher Sig} {cv : ChainView}
    (h : m.inbound x = some s) : Payment.recvFound verify m x s w cv = Payment.receive verify m x (some w) (some cv) := by
  simp only [Payment.receive, h]

theorem recvFound_inbound {verify : Sig → Addr → Payment.VBody → Bool} {m : Mgr Sig} {x : Addr} {s : Payment.Chan Sig} {w : Voucher Sig} {cv : ChainView} (K : Addr) :
    (K ≠ x → (Payment.recvFound verify m x s w cv).1.inbound K = m.inbound K) ∧
    (m.inbound K ≠ none → (Payment.recvFound verify m x s w cv).1.inbound K ≠ none) := by
  unfold Payment.recvFound
  split
  · exact ⟨fun _ => rfl, id⟩
  · dsimp only [Payment.put]
    refine ⟨fun h => by simp [h], fun h => ?_⟩
    split
    · simp
    · exact h

theorem recvCreate_inbound {verify : Sig → Addr → Payment.VBody → Bool} {m : Mgr Sig} {x : Addr} {w : Voucher Sig} {cv : ChainView} {K : Addr} (h : K ≠ x) :
    (Payment.recvCreate verify m x w cv).1.inbound K = m.inbound K := by
  unfold Payment.recvCreate
  simp [Payment.put, h]

/-- A thread that goes on without receiving. -/
theorem ThreadOk.next {sp : Int} {K : Addr} {log : List (Nat × Entry)} {i : Nat} {info : Option (Paid × List Char × List Char)} {p q : Prog Sig}
    (h : ThreadOk sp K log i info p) (h1 : ∀ P, After sp P p → After sp P q) (h2 : ∀ need ch v, Before sp need ch v p → Before sp need ch v q)
    (h3 : ∀ need ch v, ¬ Creating sp K need ch v p) : ThreadOk sp K log i info q := by
  unfold ThreadOk at *
  split at h
  · rename_i pd ch v
    rcases h with h | h | ⟨a, g1, g2⟩ | h
    · exact Or.inl (h2 _ _ _ h)
    · exact absurd h (h3 _ _ _)
    · exact Or.inr (Or.inr (Or.inl ⟨a, g1, h1 _ g2⟩))
    · exact Or.inr (Or.inr (Or.inr (h1 _ h)))
  · exact h1 _ h

/-- A thread that receives. -/
theorem ThreadOk.received {sp : Int} {K : Addr} {log : List (Nat × Entry)} {i : Nat} {info : Option (Paid × List Char × List Char)} {p : Prog Sig}
    {x t : List Char} {k : RecvOut → Prog Sig} (h : ThreadOk sp K log i info p) (hA : ∀ P, ¬ After sp P p)
    (hB : ∀ need ch v, Before sp need ch v p ∨ Creating sp K need ch v p →
      x = ch ∧ t = v ∧ (∀ a, After sp (need a) (k (.credited a))) ∧ After sp False (k .error) ∧ After sp False (k .panic))
    (o : RecvOut) : ThreadOk sp K ((i, ⟨x, t, o⟩) :: log) i info (k o) := by
  unfold ThreadOk at *
  split at h
  · rename_i pd ch v
    have main : Before sp (need sp pd) ch v p ∨ Creating sp K (need sp pd) ch v p →
        ThreadOk sp K ((i, ⟨x, t, o⟩) :: log) i (some (pd, ch, v)) (k o) := fun h => by
      obtain ⟨rfl, rfl, hk⟩ := hB _ _ _ h
      cases o with
      | credited a => exact Or.inr (Or.inr (Or.inl ⟨a, by simp, hk.1 a⟩))
      | error => exact Or.inr (Or.inr (Or.inr hk.2.1))
      | panic => exact Or.inr (Or.inr (Or.inr hk.2.2))
    rcases h with h | h | ⟨a, _, g2⟩ | h
    · exact main (Or.inl h)
    · exact main (Or.inr h)
    · exact absurd g2 (hA _)
    · exact absurd h (hA _)
  · exact absurd h (hA _)

/-- What the step of one thread does. -/
theorem step_ok {E : Env Sig} {sp : Int} {K : Addr} {c0 c : Core Sig} {log : List (Nat × Entry)} {i : Nat} {info : Option (Paid × List Char × List Char)}
    {p : Prog Sig} (chain : Addr → Option ChainView) (hknown : c.payment.inbound K ≠ none) (hprice : c.searchPrice = sp)
    (ht : ThreadOk sp K log i info p) (hl : LogOk E K c0 c log) :
    let r := step E chain c p
    let log' := (r.2.2.map fun e => (i, e)).toList ++ log
    r.1.payment.inbound K ≠ none ∧ r.1.searchPrice = sp ∧ ThreadOk sp K log' i info r.2.1 ∧ LogOk E K c0 r.1 log' := by
  cases p with
  | done outs => exact ⟨hknown, hprice, ht, hl⟩
  | find cid k => exact ⟨hknown, hprice, ht.next (fun P h => h _) (fun _ _ _ h => h _) (by simp [Creating]), hl⟩
  | lookup cid ds k => exact ⟨hknown, hprice, ht.next (fun P h => h _) (fun _ _ _ h => False.elim h) (by simp [Creating]), hl⟩
  | prices k => exact ⟨hknown, hprice, ht.next (fun P h => by subst hprice; exact h _) (fun _ _ _ h => False.elim h) (by simp [Creating]), hl⟩
  | reprice n k => exact ⟨hknown, hprice, ht.next (fun P h => h) (fun _ _ _ h => False.elim h) (by simp [Creating]), hl.same rfl⟩
  | peers run k =>
    have hrun : ∀ c : Core Sig, (run c).1.payment.inbound = c.payment.inbound ∧ (run c).1.searchPrice = c.searchPrice := by
      unfold ThreadOk at ht
      split at ht
      · rcases ht with h | h | ⟨a, _, h⟩ | h
        · exact False.elim h
        · exact False.elim h
        · exact h.1
        · exact h.1
      · exact ht.1
    refine ⟨?_, ?_, ht.next (fun P h => h.2 _ _) (fun _ _ _ h => False.elim h) (by simp [Creating]), hl.same ?_⟩
    · simp only [step, (hrun c).1]; exact hknown
    · simp only [step, (hrun c).2]; exact hprice
    · simp only [step, (hrun c).1]
  | create x t w cv k =>
    have hne : String.ofList x ≠ K := by
      unfold ThreadOk at ht
      split at ht
      · rcases ht with h | h | ⟨a, _, h⟩ | h
        · exact False.elim h
        · exact h.2.2.1
        · exact False.elim h
        · exact False.elim h
      · exact False.elim ht
    have hin := recvCreate_inbound (verify := E.verifyVoucher) (m := c.payment) (x := String.ofList x) (w := w) (cv := cv) (fun h => hne h.symm)
    refine ⟨?_, hprice, ?_, ?_⟩
    · simp only [step, hin]; exact hknown
    · refine ht.received (fun P h => h) ?_ _
      rintro need ch v (h | h)
      · exact False.elim h
      · exact ⟨h.1, h.2.1, h.2.2.2⟩
    · exact (hl.away i ⟨x, t, _⟩ fun _ _ _ h => hne h.1).same hin
  | receive x t k =>
    have hB : ∀ need ch v, Before sp need ch v (Prog.receive x t k : Prog Sig) ∨ Creating sp K need ch v (Prog.receive x t k : Prog Sig) →
      x = ch ∧ t = v ∧ (∀ a, After sp (need a) (k (.credited a))) ∧ After sp False (k .error) ∧ After sp False (k .panic) := by
      rintro need ch v (h | h)
      · exact h
      · exact False.elim h
    have fail : (match E.readVoucher t, chain (String.ofList x) with | some _, some _ => False | _, _ => True) →
        ThreadOk sp K ((i, ⟨x, t, .error⟩) :: log) i info (k .error) ∧ LogOk E K c0 c ((i, ⟨x, t, .error⟩) :: log) := by
      intro hf
      refine ⟨ht.received (fun P h => h) hB .error, ?_⟩
      by_cases hK : String.ofList x = K
      · refine hl.receive i ⟨x, t, .error⟩ (chain (String.ofList x)) ?_ ?_
        all_goals
          dsimp only
          cases hv : E.readVoucher t with
          | none => simp [Payment.receive]
          | some w => cases hcv : chain (String.ofList x) with
            | none => simp [Payment.receive]
            | some cv => simp [hv, hcv] at hf
      · exact hl.away i _ fun _ _ _ h => hK h.1
    simp only [step]
    cases hv : E.readVoucher t with
    | none => 
      have := fail (by simp [hv])
      exact ⟨hknown, hprice, this.1, this.2⟩
    | some w => cases hcv : chain (String.ofList x) with
      | none =>
        have := fail (by simp [hv, hcv])
        exact ⟨hknown, hprice, this.1, this.2⟩
      | some cv =>
        dsimp only
        cases hin : c.payment.inbound (String.ofList x) with
        | none =>
          have hne : String.ofList x ≠ K := fun h => hknown (by rw [← h]; exact hin)
          refine ⟨hknown, hprice, ?_, hl⟩
          dsimp only [Option.map, Option.toList]
          unfold ThreadOk at *
          split at ht
          · rename_i pd ch v
            rcases ht with h | h | ⟨a, _, h⟩ | h
            · exact Or.inr (Or.inl ⟨h.1, h.2.1, hne, h.2.2⟩)
            · exact False.elim h
            · exact False.elim h
            · exact False.elim h
          · exact False.elim ht
        | some s =>
          have hr := recvFound_inbound (verify := E.verifyVoucher) (m := c.payment) (x := String.ofList x) (s := s) (w := w) (cv := cv) K
          refine ⟨hr.2 hknown, hprice, ht.received (fun P h => h) hB _, ?_⟩
          by_cases hK : String.ofList x = K
          · refine hl.receive i ⟨x, t, _⟩ (some cv) ?_ ?_
            · dsimp only
              rw [hv, receive_known (hin), hK]
            · dsimp only
              rw [hv, receive_known (hin), hK]
          · exact (hl.away i ⟨x, t, _⟩ fun _ _ _ h => hK h.1).same (hr.1 fun h => hK h.symm)

theorem SInv.step {E : Env Sig} {sp : Int} {K : Addr} {c0 : Core Sig} {info : Nat → Option (Paid × List Char × List Char)} {s : Sys Sig}
    (h : SInv E sp K c0 info s) (l : Label Sig) : SInv E sp K c0 info (sysStep E s l) := by
  have setOk : ∀ (i : Nat) (p q : Prog Sig) (log' : List (Nat × Entry)), s.threads[i]? = some p → (∀ e ∈ s.log, e ∈ log') → ThreadOk sp K log' i (info i) q →
      ∀ (j : Nat) p', (s.threads.set i q)[j]? = some p' → ThreadOk sp K log' j (info j) p' := by
    intro i p q log' hp hl hq j p' hj
    by_cases hij : i = j
    · subst hij
      have : i < s.threads.length := (List.getElem?_eq_some_iff.1 hp).1
      simp [List.getElem?_set, this] at hj
      subst hj
      exact hq
    · simp [List.getElem?_set, hij] at hj
      exact (h.thr j p' hj).mono hl
  cases l with
  | go i chain =>
    simp only [sysStep]
    cases hp : s.threads[i]? with
    | none => exact h
    | some p =>
      obtain ⟨h1, h2, h3, h4⟩ := step_ok (E := E) (i := i) chain h.known h.price (h.thr i p hp) h.log
      exact ⟨h1, h2, setOk i p _ _ hp (fun e he => by simp [he]) h3, h4⟩
  | found i r =>
    simp only [sysStep]
    split
    · rename_i cid k hp
      exact ⟨h.known, h.price, setOk i _ _ _ hp (fun e he => he) ((h.thr i _ hp).next (fun P h => h _) (fun _ _ _ h => h _) (by simp [Creating])), h.log⟩
    · exact h
  | looked i r =>
    simp only [sysStep]
    split
    · rename_i cid ds k hp
      exact ⟨h.known, h.price, setOk i _ _ _ hp (fun e he => he) ((h.thr i _ hp).next (fun P h => h _) (fun _ _ _ h => False.elim h) (by simp [Creating])), h.log⟩
    · exact h
  | asked i outs r =>
    simp only [sysStep]
    split
    · rename_i run k hp
      exact ⟨h.known, h.price, setOk i _ _ _ hp (fun e he => he) ((h.thr i _ hp).next (fun P h => h.2 _ _) (fun _ _ _ h => False.elim h) (by simp [Creating])), h.log⟩
    · exact h
  | other db outbound offerPrice => exact ⟨h.known, h.price, h.thr, h.log.same rfl⟩

theorem SInv.run {E : Env Sig} {sp : Int} {K : Addr} {c0 : Core Sig} {info : Nat → Option (Paid × List Char × List Char)} {s : Sys Sig}
    (h : SInv E sp K c0 info s) (sched : List (Label Sig)) : SInv E sp K c0 info (sysRun E s sched) := by
  induction sched generalizing s with
  | nil => exact h
  | cons l ls ih => exact ih (h.step l)

/-! ## The start -/

/-- The payment that the request with this number carries. -/
def infoOf (reqs : List (Env Sig × Paid × Msg)) (i : Nat) : Option (Paid × List Char × List Char) :=
  match reqs[i]? with
  | some (_, p, m) => (carries p.kind m).map fun x => (p, x)
  | none => none

theorem serving_ok (E : Env Sig) (c : Core Sig) (reqs : List (Env Sig × Paid × Msg)) (hpr : ∀ r ∈ reqs, ProtocolOk r.1.pr) (K : Addr)
    (hk : c.payment.inbound K ≠ none) : SInv E c.searchPrice K c (infoOf reqs) (serving c reqs) := by
  refine ⟨hk, rfl, ?_, ⟨fun _ => Int.le_refl _, by simp [serving], by simp [serving]⟩⟩
  intro i p hp
  simp only [serving, List.getElem?_map, Option.map_eq_some_iff] at hp
  obtain ⟨⟨E', pd, m⟩, hr, rfl⟩ := hp
  simp only [infoOf, hr]
  cases hcar : carries pd.kind m with
  | none =>
    obtain ⟨o, e, ho⟩ := handler_unread E' c pd m hcar
    simp only [Option.map, ThreadOk, e]
    exact fun h => absurd h ho
  | some x =>
    obtain ⟨ch, v⟩ := x
    exact Or.inl (before_handler E' (hpr _ (List.mem_of_getElem? hr)) c.searchPrice c pd m hcar)

/-- A request that has been served has brought its voucher. -/
theorem served_hit {E : Env Sig} {c : Core Sig} {reqs : List (Env Sig × Paid × Msg)} (hpr : ∀ r ∈ reqs, ProtocolOk r.1.pr) {sched : List (Label Sig)}
    {i : Nat} {p : Paid} {ch : List Char} {w : Voucher Sig} (hk : c.payment.inbound (String.ofList ch) ≠ none)
    (h : Served E reqs (sysRun E (serving c reqs) sched) i p ch w) :
    ∃ v a, (i, ⟨ch, v, .credited a⟩) ∈ (sysRun E (serving c reqs) sched).log ∧ Hit E (String.ofList ch) w.body.lane ⟨ch, v, .credited a⟩ w a ∧ need c.searchPrice p a := by
  obtain ⟨E', m, t, outs, x, hr, hc, hv, hd, hx, hdis⟩ := h
  have ht := ((serving_ok E c reqs hpr _ hk).run sched).thr i _ hd
  have hT : Tells outs := ⟨x, hx, hdis⟩
  simp only [infoOf, hr, hc, Option.map, ThreadOk] at ht
  rcases ht with h | h | ⟨a, h1, h2⟩ | h
  · exact absurd hT h
  · exact False.elim h
  · exact ⟨t, a, h1, ⟨rfl, hv, rfl, rfl⟩, h2 hT⟩
  · exact False.elim (h hT)

theorem pairwise_either {α : Type} {R : α → α → Prop} : ∀ {l : List α}, l.Pairwise R → ∀ {x y}, x ∈ l → y ∈ l → x ≠ y → R x y ∨ R y x
  | a :: l, h, x, y, hx, hy, hne => by
    rw [List.pairwise_cons] at h
    rcases List.mem_cons.1 hx with rfl | hx <;> rcases List.mem_cons.1 hy with rfl | hy
    · exact absurd rfl hne
    · exact Or.inl (h.1 _ hy)
    · exact Or.inr (h.1 _ (by assumption))
    · exact pairwise_either h.2 hx hy hne

theorem exists_max : ∀ (l : List Int), l ≠ [] → ∃ x ∈ l, ∀ y ∈ l, y ≤ x
  | [], h => absurd rfl h
  | [a], _ => ⟨a, by simp, by simp⟩
  | a :: b :: l, _ => by
    obtain ⟨x, hx, hm⟩ := exists_max (b :: l) (by simp)
    by_cases h : a ≤ x
    · refine ⟨x, List.mem_cons_of_mem _ hx, fun y hy => ?_⟩
      rcases List.mem_cons.1 hy with rfl | hy
      · exact h
      · exact hm y hy
    · refine ⟨a, by simp, fun y hy => ?_⟩
      rcases List.mem_cons.1 hy with rfl | hy
      · exact Int.le_refl _
      · have := hm y hy; omega

/-- The largest of some numbers that are at least `d` apart. -/
theorem largest {d base : Int} : ∀ (n : Nat) (l : List Int), l.length = n → l ≠ [] → l.Pairwise (fun x y => x + d ≤ y ∨ y + d ≤ x) → 0 ≤ d →
    (∀ x ∈ l, base + d ≤ x) → ∃ x ∈ l, base + n * d ≤ x
  | 0, l, hl, hne, _, _, _ => absurd (List.length_eq_zero_iff.1 hl) hne
  | n + 1, l, hl, hne, hp, hd, hb => by
    obtain ⟨x, hx, hm⟩ := exists_max l hne
    have hperm := List.perm_cons_erase hx
    have hp' := (hperm.pairwise_iff (fun {a b} (h : a + d ≤ b ∨ b + d ≤ a) => h.symm)).1 hp
    rw [List.pairwise_cons] at hp'
    have hlen : (l.erase x).length = n := by rw [List.length_erase_of_mem hx]; omega
    have hmul : ((n + 1 : Nat) : Int) * d = (n : Int) * d + d := by rw [Int.natCast_add, Int.add_mul]; simp
    by_cases he : l.erase x = []
    · rw [he] at hlen
      simp only [List.length_nil] at hlen
      subst hlen
      exact ⟨x, hx, by have := hb x hx; simpa using this⟩
    · obtain ⟨y, hy, hge⟩ := largest n (l.erase x) hlen he hp'.2 hd (fun z hz => hb z (List.mem_of_mem_erase hz))
      have h1 := hp'.1 y hy
      have h2 := hm y (List.mem_of_mem_erase hy)
      exact ⟨x, hx, by omega⟩

end FcRetrieval.Gateway.Conc
