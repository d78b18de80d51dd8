import Verif.Spec.FilAddress
import Verif.Props.Payment
/-!
# C168: a payment channel is one account, however its address is written
-/

set_option linter.unusedSimpArgs false

namespace FcRetrieval.FilAddress
open FcRetrieval.Payment

variable {Sig : Type}

/-! ## Spellings -/

/-- The letter of the network makes no difference. -/
theorem C168_network (rest : Char → List Char → Option (List UInt8)) (s : List Char) : read rest ('t' :: s) = read rest ('f' :: s) := by
  match s with
  | [] => simp [read, undefText]
  | [p] => simp [read, undefText]
  | p :: c :: s => simp [read, undefText]

/-- Nor do leading zeros, up to twenty digits. -/
theorem C168_zeros (rest : Char → List Char → Option (List UInt8)) (net : Char) (ds : List Char) (hne : ds ≠ []) (k : Nat)
    (hlen : k + ds.length ≤ 20) : read rest (net :: '0' :: (List.replicate k '0' ++ ds)) = read rest (net :: '0' :: ds) := by
  have hz : ∀ k, digitsVal 0 (List.replicate k '0' ++ ds) = digitsVal 0 ds := by
    intro k
    induction k with
    | zero => rfl
    | succ k ih => simp [List.replicate_succ, digitsVal, ih]
  have hp : parseUint (List.replicate k '0' ++ ds) = parseUint ds := by
    simp [parseUint, hz, hne]
  have key : ∀ l : List Char, l ≠ [] → l.length ≤ 20 → read rest (net :: '0' :: l) = if net ≠ 'f' ∧ net ≠ 't' then none else (parseUint l).map .id := by
    intro l hl h20
    cases l with
    | nil => exact absurd rfl hl
    | cons c l =>
      have h1 : ¬ (net :: '0' :: c :: l = undefText) := by simp [undefText]
      have h2 : ¬ (net :: '0' :: c :: l).length > 86 := by simp at h20 ⊢; omega
      have h3 : ¬ (c :: l).length > 20 := by omega
      unfold read
      rw [if_neg (by simpa using h1), if_neg h2]
      dsimp only
      rw [if_pos rfl, if_neg h3]
  rw [key _ (by simp [hne]) (by simpa using hlen), key ds hne (by omega), hp]

/-! ## What is credited -/

theorem receive_new {verify : Sig → Addr → VBody → Bool} {m : Mgr Sig} {ch : Addr} {v : Voucher Sig} {cv : ChainView} (h : m.inbound ch = none) :
    receive verify m ch (some v) (some cv) = recvCreate verify m ch v cv := by simp only [receive, h]

theorem recvCreate_snd {verify : Sig → Addr → VBody → Bool} {m m' : Mgr Sig} {ch ch' : Addr} {v : Voucher Sig} {cv : ChainView} (h : m.address = m'.address) :
    (recvCreate verify m ch v cv).2 = (recvCreate verify m' ch' v cv).2 := by
  have hr : ∀ (c c' : Chan Sig), c.balance = c'.balance → c.redeemed = c'.redeemed → c.lanes = c'.lanes →
      (recvCheck verify m.address c v cv).2 = (recvCheck verify m.address c' v cv).2 := by
    intro c c' h1 h2 h3
    simp only [recvCheck, Chan.lane, h1, h2, h3]
    cases cv.to with
    | absent => rfl
    | unresolved => rfl
    | key to =>
      dsimp only
      split
      · rfl
      cases cv.frm with
      | absent => rfl
      | unresolved => rfl
      | key frm =>
        dsimp only
        by_cases a1 : verify v.sig frm v.body = false
        · simp only [a1, if_true]
        by_cases a2 : ((c'.lanes v.body.lane).getD newLane).nonce > v.body.nonce
        · simp only [a1, a2, if_true, if_false, reduceCtorEq]
        by_cases a3 : ((c'.lanes v.body.lane).getD newLane).redeemed ≥ v.body.amount
        · simp only [a1, a2, a3, if_true, if_false, reduceCtorEq]
        by_cases a4 : c'.balance < c'.redeemed + (v.body.amount - ((c'.lanes v.body.lane).getD newLane).redeemed)
        · simp only [a1, a2, a3, a4, if_true, if_false, reduceCtorEq]
        · simp only [a1, a2, a3, a4, if_true, if_false, reduceCtorEq]
  simp only [recvCreate, ← h]
  exact hr _ _ rfl rfl rfl

theorem ofList_inj {s t : List Char} (h : String.ofList s = String.ofList t) : s = t := by
  have := congrArg String.toList h
  simpa using this

/-- Against C168: a voucher that is credited on a channel is credited once for every way in which the channel's address can be
written. -/
theorem C168_refuted (verify : Sig → Addr → VBody → Bool) (me : Addr) (rest : Char → List Char → Option (List UInt8)) (net : Address → Option ChainView)
    (x : Address) (v : Voucher Sig) (a : Int) (texts : List (List Char)) (hnd : texts.Nodup) (hread : ∀ t ∈ texts, read rest t = some x)
    (hone : ∀ t ∈ texts, (recvRun verify (newMgr me) [call rest net (some v) t]).2 = [.credited a]) :
    (recvRun verify (newMgr me) (texts.map (call rest net (some v)))).2 = List.replicate texts.length (.credited a) ∧
      creditedFor rest x (texts.map (call rest net (some v))) (recvRun verify (newMgr me) (texts.map (call rest net (some v)))).2 = texts.length * a := by
  have main : ∀ (texts : List (List Char)) (m : Mgr Sig), texts.Nodup → (∀ t ∈ texts, read rest t = some x) →
      (∀ t ∈ texts, (recvRun verify (newMgr me) [call rest net (some v) t]).2 = [.credited a]) → m.address = me → (∀ t ∈ texts, m.inbound (String.ofList t) = none) →
      (recvRun verify m (texts.map (call rest net (some v)))).2 = List.replicate texts.length (.credited a) := by
    intro texts
    induction texts with
    | nil => intros; rfl
    | cons t ts ih =>
      intro m hnd hread hone hme hnew
      rw [List.nodup_cons] at hnd
      have h1 := hone t (by simp)
      simp only [recvRun, call, hread t (by simp), Option.bind_some, List.cons.injEq, and_true] at h1
      simp only [List.map_cons, recvRun, call, hread t (by simp), Option.bind_some, List.length_cons, List.replicate_succ, List.cons.injEq]
      cases hn : net x with
      | none => simp [hn, receive] at h1
      | some cv =>
        rw [hn, receive_new (by rfl)] at h1
        have hrec : receive verify m (String.ofList t) (some v) (some cv) = recvCreate verify m (String.ofList t) v cv := receive_new (hnew t (by simp))
        refine ⟨by rw [hrec, ← h1]; exact recvCreate_snd hme, ?_⟩
        rw [hrec]
        have := ih (recvCreate verify m (String.ofList t) v cv).1 hnd.2 (fun u hu => hread u (by simp [hu])) (fun u hu => hone u (by simp [hu]))
          (by simpa [recvCreate] using hme) (by
            intro u hu
            have hne : String.ofList u ≠ String.ofList t := fun h => hnd.1 (ofList_inj h ▸ hu)
            simp [recvCreate, put, hne]
            exact hnew u (by simp [hu]))
        exact this
  have e1 := main texts (newMgr me) hnd hread hone rfl (fun _ _ => rfl)
  refine ⟨e1, ?_⟩
  rw [e1]
  clear e1 main hnd hone
  induction texts with
  | nil => simp [creditedFor]
  | cons t ts ih =>
    simp only [List.map_cons, List.length_cons, List.replicate_succ, creditedFor, call, String.toList_ofList, hread t (by simp), if_true]
    have := ih (fun u hu => hread u (by simp [hu]))
    rw [this, Int.natCast_add, Int.add_mul]
    simp [Int.add_comm]

/-- So two calls are credited with twice what the chain holds: for every balance, the same voucher over all of it is credited as
`t…` and as `f…`. -/
theorem C168_over_refuted (verify : Sig → Addr → VBody → Bool) (me : Addr) (rest : Char → List Char → Option (List UInt8)) (s : List Char) (x : Address)
    (hx : read rest ('t' :: s) = some x) (payer : Addr) (v : Voucher Sig) (hsig : verify v.sig payer v.body = true) (hpos : 0 < v.body.amount)
    (net : Address → Option ChainView) (hnet : net x = some ⟨v.body.amount, .key me, .key payer⟩) :
    ∃ ops : List (RecvOp Sig), (∀ op ∈ ops, ∃ t, op = call rest net (some v) t) ∧
      creditedFor rest x ops (recvRun verify (newMgr me) ops).2 = 2 * v.body.amount := by
  have hone : ∀ t ∈ ['t' :: s, 'f' :: s], (recvRun verify (newMgr me) [call rest net (some v) t]).2 = [.credited v.body.amount] := by
    intro t ht
    have hr : read rest t = some x := by
      simp only [List.mem_cons, List.not_mem_nil, or_false] at ht
      rcases ht with rfl | rfl
      · exact hx
      · rw [← C168_network]; exact hx
    simp only [recvRun, call, hr, Option.bind_some, hnet]
    rw [receive_new (by rfl)]
    have h2 : ¬ (v.body.amount ≤ 0) := by omega
    simp [recvCreate, recvCheck, hsig, Chan.lane, newLane, newMgr, h2]
  refine ⟨['t' :: s, 'f' :: s].map (call rest net (some v)), ?_, ?_⟩
  · intro op hop
    obtain ⟨t, -, rfl⟩ := List.mem_map.1 hop
    exact ⟨t, rfl⟩
  · have := (C168_refuted verify me rest net x v v.body.amount ['t' :: s, 'f' :: s] (by simp) (by
      intro t ht
      simp only [List.mem_cons, List.not_mem_nil, or_false] at ht
      rcases ht with rfl | rfl
      · exact hx
      · rw [← C168_network]; exact hx) hone).2
    simpa using this

theorem creditedFor_eq {rest : Char → List Char → Option (List UInt8)} {x : Address} {ch : Addr} (hch : read rest ch.toList = some x) :
    ∀ (ops : List (RecvOp Sig)) (outs : List RecvOut), (∀ op ∈ ops, read rest op.channel.toList = some x → op.channel = ch) →
      creditedFor rest x ops outs = totalCredited ch ops outs
  | [], outs, _ => by simp [creditedFor, totalCredited]
  | op :: ops, [], _ => by simp [creditedFor, totalCredited]
  | op :: ops, o :: outs, h => by
    have ih := creditedFor_eq hch ops outs (fun p hp => h p (by simp [hp]))
    cases o with
    | error => simpa [creditedFor, totalCredited] using ih
    | panic => simpa [creditedFor, totalCredited] using ih
    | credited a =>
      simp only [creditedFor, totalCredited, ih]
      by_cases e : op.channel = ch
      · rw [if_pos e, if_pos (by rw [e]; exact hch)]
      · rw [if_neg e, if_neg (fun h' => e (h op (by simp) h'))]

/-- Where everyone writes an address in one way, no more is credited for a channel than the chain shows for it.  Missing for C168:
that everyone does. -/
theorem C168_one_spelling_partial (verify : Sig → Addr → VBody → Bool) (me : Addr) (rest : Char → List Char → Option (List UInt8)) (ops : List (RecvOp Sig))
    (net : Address → Option ChainView) (v : Option (Voucher Sig)) (text : List Char) (x : Address) (hx : read rest text = some x) (a : Int)
    (hone : ∀ op ∈ ops, read rest op.channel.toList = some x → op.channel.toList = text)
    (h : (recvRun verify (newMgr me) (ops ++ [call rest net v text])).2.getLast? = some (.credited a)) :
    ∃ cv, net x = some cv ∧ creditedFor rest x (ops ++ [call rest net v text]) (recvRun verify (newMgr me) (ops ++ [call rest net v text])).2 ≤ cv.balance := by
  obtain ⟨cv, h1, h2⟩ := C37_within_chain_balance verify me ops (call rest net v text) a h
  refine ⟨cv, by simpa [call, hx] using h1, ?_⟩
  rw [creditedFor_eq (ch := String.ofList text) (by simpa using hx)]
  · exact h2
  · intro op hop hr
    rcases List.mem_append.1 hop with hop | hop
    · rw [← hone op hop hr, String.ofList_toList]
    · simp only [List.mem_singleton] at hop
      subst hop
      rfl

/-! ### the hypotheses can be met -/

/-- The actor 1234 has thirty-four texts of this kind, seventeen for each network; three of them. -/
example : read (fun _ _ => none) "t01234".toList = some (.id 1234) ∧ read (fun _ _ => none) "f01234".toList = some (.id 1234) ∧
    read (fun _ _ => none) "t0001234".toList = some (.id 1234) := by decide +kernel

/-- The same voucher for 10, on a channel with 10, is credited three times. -/
example : (recvRun toyVerify (newMgr "me") (["t01234".toList, "f01234".toList, "t0001234".toList].map
    (call (fun _ _ => none) (fun a => if a = .id 1234 then some ⟨10, .key "me", .key "payer"⟩ else none)
      (some ⟨⟨"t01234", 0, 0, 10⟩, ("payer", ⟨"t01234", 0, 0, 10⟩)⟩)))).2 = [.credited 10, .credited 10, .credited 10] := by decide +kernel

example : ∃ ops : List (RecvOp ToySig), creditedFor (fun _ _ => none) (.id 1234) ops (recvRun toyVerify (newMgr "me") ops).2 = 20 := by
  obtain ⟨ops, -, h⟩ := C168_over_refuted toyVerify "me" (fun _ _ => none) "01234".toList (.id 1234) (by decide +kernel) "payer"
    ⟨⟨"t01234", 0, 0, 10⟩, ("payer", ⟨"t01234", 0, 0, 10⟩)⟩ (by decide) (by decide)
    (fun _ => some ⟨10, .key "me", .key "payer"⟩) rfl
  exact ⟨ops, h⟩

/-- One spelling: the voucher for 10 is credited, and 10 is all. -/
example : ∃ cv : ChainView, some (⟨10, .key "me", .key "payer"⟩ : ChainView) = some cv ∧
    creditedFor (fun _ _ => none) (.id 1234) [call (fun _ _ => none) (fun _ => some ⟨10, .key "me", .key "payer"⟩)
      (some (⟨⟨"t01234", 0, 0, 10⟩, ("payer", ⟨"t01234", 0, 0, 10⟩)⟩ : Voucher ToySig)) "t01234".toList] [.credited 10] ≤ cv.balance :=
  C168_one_spelling_partial toyVerify "me" (fun _ _ => none) [] (fun _ => some ⟨10, .key "me", .key "payer"⟩)
    (some (⟨⟨"t01234", 0, 0, 10⟩, ("payer", ⟨"t01234", 0, 0, 10⟩)⟩ : Voucher ToySig)) "t01234".toList (.id 1234) (by decide +kernel) 10 (by simp) (by decide +kernel)

end FcRetrieval.FilAddress
