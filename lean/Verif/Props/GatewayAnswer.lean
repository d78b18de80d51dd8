import Verif.Spec.GatewayAnswer
import Verif.Lemmas.GatewayReplay
import Verif.Lemmas.GatewayExamples
/-!
# Every request is answered, and once

C163.
-/
set_option linter.unusedSimpArgs false

namespace FcRetrieval.Gateway
open FcRetrieval.Ids (Id)
open FcRetrieval.Message (Msg)
open FcRetrieval.Wire
open FcRetrieval.Codecs
open FcRetrieval.Register (Record)
open FcRetrieval.GatewayLife (carries)

variable {Sig : Type}

/-- One answer, or none because the handler broke down. -/
def Once (o : List (Out Sig)) : Prop := answers o + breaks o = 1

theorem answers_append (a b : List (Out Sig)) : answers (a ++ b) = answers a + answers b := by simp [answers]
theorem breaks_append (a b : List (Out Sig)) : breaks (a ++ b) = breaks a + breaks b := by simp [breaks]

theorem once_status (n : Nat) : Once [(.status n : Out Sig)] := rfl
theorem once_invalid : Once [(.invalid : Out Sig)] := rfl
theorem once_panic : Once [(.panic : Out Sig)] := rfl

theorem respond_once {α : Type} (E : Env Sig) (c : Core Sig) (codec : Codec α) (b1 b2 : Out Sig) (a : α) (h1 : Once [b1]) (h2 : Once [b2]) :
    Once (respond E c codec b1 b2 a) := by
  unfold respond
  split
  · rfl
  · exact h1
  · split
    · rfl
    · exact h2

theorem say_status {α : Type} {E : Env Sig} {c : Core Sig} {codec : Codec α} {x y : Nat} {a : α} : Once (respond E c codec (.status x) (.status y) a) :=
  respond_once _ _ _ _ _ _ rfl rfl

theorem say_invalid {α : Type} {E : Env Sig} {c : Core Sig} {codec : Codec α} {a : α} : Once (respond E c codec .invalid .invalid a) :=
  respond_once _ _ _ _ _ _ rfl rfl

theorem request_quiet {E : Env Sig} {c : Core Sig} {id : Id} {m : Res Msg} : answers (request E c id m).1 + breaks (request E c id m).1 = 0 := by
  unfold request
  split
  · split <;> rfl
  · rfl
  · rfl

theorem request_quiet' {E : Env Sig} {c : Core Sig} {id : Id} {m : Res Msg} {out : List (Out Sig)} {r : Res Msg} (h : request E c id m = (out, r)) :
    answers out + breaks out = 0 := by
  have := request_quiet (E := E) (c := c) (id := id) (m := m)
  rw [h] at this
  exact this

/-- A loop gives no answer if it comes to its end, and one otherwise. -/
def Ends {κ : Type} (out : List (Out Sig)) (k : Option κ) : Prop := answers out + breaks out = if k.isSome then 0 else 1

theorem dhtLoop_ends (E : Env Sig) (c : Core Sig) (cid : Id) : ∀ (ids : List Id) (k : Contacts), Ends (dhtLoop E c cid ids k).1 (dhtLoop E c cid ids k).2
  | [], k => rfl
  | id :: ids, k => by
    unfold dhtLoop
    split
    · rename_i out h
      have := request_quiet' h
      simp only [Ends, answers_append, breaks_append]
      show _ = 1
      have e : answers [(.panic : Out Sig)] = 0 := rfl
      have e2 : breaks [(.panic : Out Sig)] = 1 := rfl
      omega
    · rename_i out r _ h
      have h1 := request_quiet' h
      have h2 := dhtLoop_ends E c cid ids (k.add id r)
      simp only [Ends, answers_append, breaks_append] at h2 ⊢
      omega

theorem spent_quiet (r : Payment.Addr) (v : Payment.Voucher Sig) (o : List (Out Sig)) : answers (.paid r v :: o) = answers o ∧ breaks (.paid r v :: o) = breaks o := ⟨rfl, rfl⟩

theorem dhtV2Loop_ends (E : Env Sig) (cid : Id) : ∀ (rs : List Record) (c : Core Sig) (k : Contacts),
    Ends (dhtV2Loop E cid c rs k).2.1 (dhtV2Loop E cid c rs k).2.2
  | [], c, k => rfl
  | r :: rs, c, k => by
    unfold dhtV2Loop
    split
    · rfl
    · split
      · rfl
      · split
        · rename_i out h
          have := request_quiet' h
          simp only [Ends, List.cons_append, (spent_quiet _ _ _).1, (spent_quiet _ _ _).2, answers_append, breaks_append]
          show _ = 1
          have e : answers [(.panic : Out Sig)] = 0 := rfl
          have e2 : breaks [(.panic : Out Sig)] = 1 := rfl
          omega
        · rename_i id _ _ c' _ _ _ _ out resp _ h
          have h1 := request_quiet' h
          have h2 := dhtV2Loop_ends E cid rs c' (k.add id resp)
          simp only [Ends, List.cons_append, (spent_quiet _ _ _).1, (spent_quiet _ _ _).2, answers_append, breaks_append] at h2 ⊢
          omega

theorem spent_list (o : Option (Payment.Addr × Payment.Voucher Sig)) (r : Payment.Addr) :
    answers (o.map (fun p => Out.paid r p.2)).toList + breaks (o.map (fun p => (Out.paid r p.2 : Out Sig))).toList = 0 := by
  cases o <;> rfl

theorem dhtOfferLoop_ends (E : Env Sig) (cid : Option Id) (nonce : Int) : ∀ (ids : List Id) (dss : List (List (List Char))) (c : Core Sig) (k : Contacts),
    Ends (dhtOfferLoop E cid nonce c ids dss k).2.1 (dhtOfferLoop E cid nonce c ids dss k).2.2
  | [], _, c, k => by unfold dhtOfferLoop; rfl
  | _ :: _, [], c, k => by unfold dhtOfferLoop; rfl
  | id :: ids, ds :: dss, c, k => by
    unfold dhtOfferLoop
    split
    · rfl
    · rename_i g _
      split
      · rfl
      · rename_i c' pay _
        have hs := spent_list pay (String.ofList g.address)
        split
        · rename_i out h
          have := request_quiet' h
          simp only [Ends, answers_append, breaks_append]
          show _ = 1
          have e : answers [(.panic : Out Sig)] = 0 := rfl
          have e2 : breaks [(.panic : Out Sig)] = 1 := rfl
          omega
        · rename_i out resp _ h
          have h1 := request_quiet' h
          have h2 := dhtOfferLoop_ends E cid nonce ids dss c' (k.add id resp)
          simp only [Ends, answers_append, breaks_append] at h2 ⊢
          omega

theorem ends_none {κ : Type} {out : List (Out Sig)} {k : Option κ} (h : Ends out k) (hk : k = none) : Once out := by subst hk; exact h

theorem ends_some {κ : Type} {out o : List (Out Sig)} {k : Option κ} {x : κ} (h : Ends out k) (hk : k = some x) (ho : Once o) : Once (out ++ o) := by
  subst hk
  simp only [Ends, Once, answers_append, breaks_append, Option.isSome_some, if_true] at *
  omega

theorem receive_credits {E : Env Sig} {c c' : Core Sig} {ch v : List Char} {a : Int} (h : receive E c ch v = (c', .credited a)) : Credits E c ch v a :=
  (congrArg Prod.snd h : _)

/-- C163, for requests that are in time and not underpaid. -/
theorem serve_once (E : Env Sig) (c : Core Sig) (k : Kind) (m : Msg) (hl : ¬ Late E k m) (hs : ¬ Short E c k m) :
    Once (serve E c k m).2 := by
  cases k with
  | establishment =>
    simp only [serve]; unfold establishment
    split
    · rfl
    · rfl
    · rfl
    · rename_i h
      split
      · rename_i ht
        exact absurd ⟨_, by simp only [ttlOf, h], ht⟩ hl
      · (dsimp only; exact say_status)
  | standard =>
    simp only [serve]; unfold standard
    split
    · rfl
    · rfl
    · rename_i h
      split
      · rename_i ht
        exact absurd ⟨_, by simp only [ttlOf, h], ht⟩ hl
      · split
        · rfl
        · split
          · (dsimp only; exact say_status)
          · rfl
  | standardV2 =>
    simp only [serve]; unfold standardV2
    split
    · rfl
    · rfl
    · rename_i h
      split
      · rename_i ht
        exact absurd ⟨_, by simp only [ttlOf, h], ht⟩ hl
      · split
        · rfl
        · split
          · dsimp only
            split
            · rfl
            · (dsimp only; exact say_status)
            · split
              · split
                · (dsimp only; exact say_status)
                · rfl
              · (dsimp only; exact say_status)
          · rfl
  | standardOffer =>
    simp only [serve]; unfold standardOffer
    split
    · rfl
    · rfl
    · rename_i h
      split
      · rename_i ht
        exact absurd ⟨_, by simp only [ttlOf, h], ht⟩ hl
      · dsimp only
        split
        · rfl
        · (dsimp only; exact say_status)
        · split
          · split
            · (dsimp only; exact say_status)
            · rfl
          · (dsimp only; exact say_status)
  | dht =>
    simp only [serve]; unfold dht
    split
    · rfl
    · rfl
    · rename_i h
      split
      · rename_i ht
        exact absurd ⟨_, by simp only [ttlOf, h], ht⟩ hl
      · split
        · rfl
        · split
          · rfl
          · split
            · rfl
            · rename_i ids _
              split <;> rename_i hloop
              · have := dhtLoop_ends E c ‹_› ids ⟨[], [], []⟩
                rw [hloop] at this
                exact ends_none this rfl
              · have := dhtLoop_ends E c ‹_› ids ⟨[], [], []⟩
                rw [hloop] at this
                exact ends_some this rfl say_status
  | dhtV2 =>
    simp only [serve]; unfold dhtV2
    split
    · rfl
    · rfl
    · rename_i cid nonce t num inc ch v h
      split
      · rename_i ht
        exact absurd ⟨_, by simp only [ttlOf, h], ht⟩ hl
      · split
        · rfl
        · split
          · rfl
          · rename_i rs hn
            split
            · rfl
            · rfl
            · rename_i c1 amount hr
              dsimp only
              by_cases hp : amount < c.searchPrice * num
              · exact absurd ⟨_, _, _, _, _, _, _, _, h, by rw [hn]; rfl, receive_credits hr, hp⟩ hs
              · simp only [if_neg hp, List.nil_append]
                have := dhtV2Loop_ends E ‹_› rs c1 ⟨[], [], []⟩
                split <;> rename_i hloop
                · rw [hloop] at this
                  exact ends_none this rfl
                · rw [hloop] at this
                  exact ends_some this rfl say_status
  | dhtOffer =>
    simp only [serve]; unfold dhtOffer
    split
    · rfl
    · rfl
    · rename_i cid nonce dss ids ch v h
      split
      · rfl
      · rfl
      · rename_i c1 amount hr
        dsimp only
        by_cases hp : amount < ((dss.map List.length).sum : Int) * c.offerPrice
        · exact absurd ⟨_, _, _, _, _, _, _, h, receive_credits hr, hp⟩ hs
        · simp only [if_neg hp, List.nil_append]
          have := dhtOfferLoop_ends E cid nonce ids dss c1 ⟨[], [], []⟩
          split <;> rename_i hloop
          · rw [hloop] at this
            exact ends_none this rfl
          · rw [hloop] at this
            exact ends_some this rfl say_status
  | peerDht =>
    simp only [serve]; unfold peerDht
    repeat' split
    all_goals first | rfl | (dsimp only; exact say_invalid)
  | peerDhtV2 =>
    simp only [serve]; unfold peerDhtV2
    repeat' split
    all_goals first | rfl | (dsimp only; exact say_invalid)
  | peerDhtOffer =>
    simp only [serve]; unfold peerDhtOffer
    dsimp only
    repeat' split
    all_goals first | rfl | (dsimp only; exact say_invalid)
  | publishDht =>
    simp only [serve]; unfold publishDht
    repeat' split
    all_goals first | rfl | (dsimp only; exact say_invalid)
  | publishGroup =>
    simp only [serve]; unfold publishGroup
    repeat' split
    all_goals first | rfl | (dsimp only; exact say_invalid)

/-- C163, what holds: a request that came in time and is not a relayed one that is underpaid gets exactly one answer, unless the handler breaks down (C97
tells when it does); then it gets none. -/
theorem C163_partial (E : Env Sig) (c : Core Sig) (k : Kind) (m : Msg) (hl : ¬ Late E k m) (hs : ¬ Short E c k m) :
    (answers (serve E c k m).2 = 1 ∧ breaks (serve E c k m).2 = 0) ∨ (answers (serve E c k m).2 = 0 ∧ breaks (serve E c k m).2 = 1) := by
  have := serve_once E c k m hl hs
  unfold Once at this
  omega

/-- A request of an unknown format is one example, a search in time another. -/
example : ¬ Late exEnv .standard ⟨0, 0, some [], some [], []⟩ := by
  rintro ⟨t, h, -⟩
  simp [ttlOf, decode, clientStandardDiscoverRequest] at h

example : ∃ m, ¬ Late exEnv .dhtV2 m ∧ ¬ Short exEnv exCore .dhtV2 m ∧ ttlOf .dhtV2 m = some 2000 := by
  obtain ⟨m, hm⟩ := exDecodes (C30_clientDHTDiscoverRequestV2 Message.defaultProtocol defaultProtocolOk (some (Merkle.exId 2)) 7 2000 1 false ['c'] ['5']
    (exIdOk 2) ⟨by decide, by decide⟩ ⟨by decide, by decide⟩ ⟨by decide, by decide⟩)
  refine ⟨m, ?_, ?_, by simp only [ttlOf, hm]⟩
  · rintro ⟨t, h, ht⟩
    simp only [ttlOf, hm, Option.some.injEq] at h
    subst h
    exact absurd ht (by decide)
  · rintro ⟨id, n, t, num, inc, ch, v, a, h, -, hc, ha⟩
    rw [hm] at h
    cases h
    have : Payment.RecvOut.credited a = .credited 5 := hc.symm.trans exCore_credits5
    cases this
    exact absurd ha (by decide)

/-- C163, late requests: the client gets nothing at all, neither an answer nor an error, and the gateway stays as it was. -/
theorem C163_late (E : Env Sig) (c : Core Sig) (k : Kind) (m : Msg) (hl : Late E k m) : serve E c k m = (c, []) := by
  obtain ⟨t, h, ht⟩ := hl
  cases k <;> simp only [ttlOf] at h <;> try (exact absurd h (by simp))
  all_goals
    split at h
    · rename_i hd
      cases h
      simp only [serve, establishment, standard, standardV2, standardOffer, dht, dhtV2, hd, if_pos ht]
    · cases h

/-- C163, underpaid relayed requests: the client gets two answers, first the status 500 that says that the payment is not enough, and then what it would
have got for the full price; or the handler breaks down in between. -/
theorem C163_short (E : Env Sig) (c : Core Sig) (k : Kind) (m : Msg) (hl : ¬ Late E k m) (hs : Short E c k m) :
    (∃ rest, (serve E c k m).2 = .status 500 :: rest) ∧ answers (serve E c k m).2 + breaks (serve E c k m).2 = 2 := by
  cases k with
  | dhtV2 =>
    obtain ⟨id, nonce, t, num, inc, ch, v, amount, hd, hn, hc, hp⟩ := hs
    obtain ⟨rs, hn⟩ := Option.isSome_iff_exists.1 hn
    have ht : ¬ E.now > t := fun ht => hl ⟨t, by simp only [ttlOf, hd], ht⟩
    cases hr : receive E c ch v with
    | mk c1 r =>
      have : r = .credited amount := (congrArg Prod.snd hr).symm.trans hc
      subst this
      have hloop := dhtV2Loop_ends E id rs c1 ⟨[], [], []⟩
      simp only [serve, dhtV2, hd, if_neg ht, hn, hr, if_pos hp]
      split <;> rename_i he
      · rw [he] at hloop
        refine ⟨⟨_, rfl⟩, ?_⟩
        have := ends_none hloop rfl
        simp only [Once] at this
        simp only [answers_append, breaks_append]
        have e : answers [(.status 500 : Out Sig)] = 1 := rfl
        have e2 : breaks [(.status 500 : Out Sig)] = 0 := rfl
        omega
      · rw [he] at hloop
        refine ⟨⟨_, rfl⟩, ?_⟩
        have := ends_some hloop rfl (say_status (E := E) (c := ‹_›) (codec := clientDHTDiscoverResponseV2) (x := 500) (y := 500)
          (a := ((‹Contacts›).contacted, (‹Contacts›).responses, (‹Contacts›).missed, nonce, false, [])))
        simp only [Once] at this
        rw [List.append_assoc]
        simp only [answers_append, breaks_append] at this ⊢
        have e : answers [(.status 500 : Out Sig)] = 1 := rfl
        have e2 : breaks [(.status 500 : Out Sig)] = 0 := rfl
        omega
  | dhtOffer =>
    obtain ⟨cid, nonce, dss, ids, ch, v, amount, hd, hc, hp⟩ := hs
    cases hr : receive E c ch v with
    | mk c1 r =>
      have : r = .credited amount := (congrArg Prod.snd hr).symm.trans hc
      subst this
      have hloop := dhtOfferLoop_ends E cid nonce ids dss c1 ⟨[], [], []⟩
      simp only [serve, dhtOffer, hd, hr, if_pos hp]
      split <;> rename_i he
      · rw [he] at hloop
        refine ⟨⟨_, rfl⟩, ?_⟩
        have := ends_none hloop rfl
        simp only [Once] at this
        simp only [answers_append, breaks_append]
        have e : answers [(.status 500 : Out Sig)] = 1 := rfl
        have e2 : breaks [(.status 500 : Out Sig)] = 0 := rfl
        omega
      · rw [he] at hloop
        refine ⟨⟨_, rfl⟩, ?_⟩
        have := ends_some hloop rfl (say_status (E := E) (c := ‹_›) (codec := clientDHTDiscoverOfferResponse) (x := 500) (y := 500)
          (a := (cid, nonce, (‹Contacts›).contacted, (‹Contacts›).responses, false, [])))
        simp only [Once] at this
        rw [List.append_assoc]
        simp only [answers_append, breaks_append] at this ⊢
        have e : answers [(.status 500 : Out Sig)] = 1 := rfl
        have e2 : breaks [(.status 500 : Out Sig)] = 0 := rfl
        omega
  | _ => exact absurd hs (by simp [Short])

/-- C163, vouchers that are refused: where others would have to be asked, or another gateway asks, the refusal is an error, and nobody is asked or paid. -/
theorem C163_refused (E : Env Sig) (c : Core Sig) (k : Kind) (m : Msg) (ch v : List Char) (r : Out Sig) (hk : refusal k = some r)
    (hc : carries k m = some (ch, v)) (hr : Refused E c ch v) (hl : ¬ Late E k m) :
    (serve E c k m).2 = [r] ∨ (serve E c k m).2 = [.panic] := by
  have key : ∃ c1, receive E c ch v = (c1, .error) := ⟨_, Prod.ext rfl hr⟩
  obtain ⟨c1, key⟩ := key
  cases k <;> simp only [refusal, Option.some.injEq, reduceCtorEq] at hk
  all_goals subst hk; simp only [carries] at hc; split at hc; case h_2 => cases hc
  all_goals rename_i hd; cases hc
  · rename_i t _ _
    have ht : ¬ E.now > t := fun ht => hl ⟨_, by simp only [ttlOf, hd], ht⟩
    simp only [serve, dhtV2, hd, if_neg ht]
    split
    · exact .inr rfl
    · split
      · exact .inl rfl
      · rw [key]; exact .inl rfl
  · simp only [serve, dhtOffer, hd, key]; exact .inl trivial
  · simp only [serve, peerDhtV2, hd]
    split
    · exact .inr rfl
    · exact .inl rfl
    · split
      · exact .inl rfl
      · rw [key]; exact .inl rfl
  · simp only [serve, peerDhtOffer, hd, key]; exact .inl trivial

/-- C163 fails at every gateway whose clock shows a time after the start of 1970: there are requests that get no answer, of every kind that carries a time. -/
theorem C163_refuted (E : Env Sig) (c : Core Sig) (hpr : ProtocolOk E.pr) (ht : 0 < E.now) (k : Kind)
    (hk : k = .establishment ∨ k = .standard ∨ k = .standardV2 ∨ k = .standardOffer ∨ k = .dht ∨ k = .dhtV2) :
    ∃ m, answers (serve E c k m).2 = 0 ∧ breaks (serve E c k m).2 = 0 := by
  have z : inI64 0 := ⟨by decide, by decide⟩
  have key : ∀ m, ttlOf k m = some 0 → ∃ m, answers (serve E c k m).2 = 0 ∧ breaks (serve E c k m).2 = 0 :=
    fun m hm => ⟨m, by rw [C163_late E c k m ⟨0, hm, ht⟩]; exact ⟨rfl, rfl⟩⟩
  rcases hk with rfl | rfl | rfl | rfl | rfl | rfl
  · obtain ⟨m, hm⟩ := exDecodes (C30_clientEstablishmentRequest E.pr hpr (some (Merkle.exId 2)) [] 0 (exIdOk 2) z)
    exact key m (by simp only [ttlOf, hm])
  · obtain ⟨m, hm⟩ := exDecodes (C30_clientStandardDiscoverRequest E.pr hpr (some (Merkle.exId 2)) 0 0 [] [] (exIdOk 2) z z)
    exact key m (by simp only [ttlOf, hm])
  · obtain ⟨m, hm⟩ := exDecodes (C30_clientStandardDiscoverRequestV2 E.pr hpr (some (Merkle.exId 2)) 0 0 [] [] (exIdOk 2) z z)
    exact key m (by simp only [ttlOf, hm])
  · obtain ⟨m, hm⟩ := exDecodes (C30_clientStandardDiscoverOfferRequest E.pr hpr (some (Merkle.exId 2)) 0 0 [] [] [] (exIdOk 2) z z)
    exact key m (by simp only [ttlOf, hm])
  · obtain ⟨m, hm⟩ := exDecodes (C30_clientDHTDiscoverRequest E.pr hpr (some (Merkle.exId 2)) 0 0 0 false [] [] (exIdOk 2) z z z)
    exact key m (by simp only [ttlOf, hm])
  · obtain ⟨m, hm⟩ := exDecodes (C30_clientDHTDiscoverRequestV2 E.pr hpr (some (Merkle.exId 2)) 0 0 0 false [] [] (exIdOk 2) z z z)
    exact key m (by simp only [ttlOf, hm])

example : ProtocolOk exEnv.pr ∧ 0 < exEnv.now := ⟨defaultProtocolOk, by decide⟩

/-- An underpaid search over other gateways, and one with a voucher that cannot be read. -/
example : ∃ m, ¬ Late exEnv .dhtV2 m ∧ Short exEnv exCore .dhtV2 m := by
  obtain ⟨m, hm⟩ := exDecodes (C30_clientDHTDiscoverRequestV2 Message.defaultProtocol defaultProtocolOk (some (Merkle.exId 2)) 7 2000 1 false ['c'] ['1']
    (exIdOk 2) ⟨by decide, by decide⟩ ⟨by decide, by decide⟩ ⟨by decide, by decide⟩)
  refine ⟨m, ?_, _, _, _, _, _, _, _, _, hm, rfl, exCore_credits1, by decide⟩
  rintro ⟨t, h, ht⟩
  simp only [ttlOf, hm, Option.some.injEq] at h
  subst h
  exact absurd ht (by decide)

example : ∃ m, carries .dhtV2 m = some (['c'], ['x']) ∧ Refused exEnv exCore ['c'] ['x'] ∧ ¬ Late exEnv .dhtV2 m := by
  obtain ⟨m, hm⟩ := exDecodes (C30_clientDHTDiscoverRequestV2 Message.defaultProtocol defaultProtocolOk (some (Merkle.exId 2)) 7 2000 1 false ['c'] ['x']
    (exIdOk 2) ⟨by decide, by decide⟩ ⟨by decide, by decide⟩ ⟨by decide, by decide⟩)
  refine ⟨m, by simp only [carries, hm], by unfold Refused; decide +kernel, ?_⟩
  rintro ⟨t, h, ht⟩
  simp only [ttlOf, hm, Option.some.injEq] at h
  subst h
  exact absurd ht (by decide)

end FcRetrieval.Gateway
