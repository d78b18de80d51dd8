import Verif.Props.Gateway
/-!
# What a gateway sends is signed with its key
-/

set_option linter.unusedSimpArgs false

namespace FcRetrieval.Gateway
open FcRetrieval.Ids (Id)
open FcRetrieval.Crypto (KeyPair KeyVersion)
open FcRetrieval.Message (Msg)
open FcRetrieval.Register (Record)
open FcRetrieval.Wire
open FcRetrieval.Codecs

variable {Sig : Type}

/-- The message is written to the requester, or sent to another gateway. -/
def Sends (x : Msg) (outs : List (Out Sig)) : Prop := .message x ∈ outs ∨ ∃ i, .asked i x ∈ outs

/-- Everything sent is signed with the key. -/
def AllSigned (E : Env Sig) (k : KeyPair) (v : KeyVersion) (outs : List (Out Sig)) : Prop := ∀ x, Sends x outs → ∃ m0, Message.sign E.P k v m0 = (x, true)

theorem AllSigned.append {E : Env Sig} {k : KeyPair} {v : KeyVersion} {a b : List (Out Sig)} (ha : AllSigned E k v a) (hb : AllSigned E k v b) :
    AllSigned E k v (a ++ b) := by
  rintro x (h | ⟨i, h⟩)
  · rcases List.mem_append.1 h with h | h
    · exact ha x (.inl h)
    · exact hb x (.inl h)
  · rcases List.mem_append.1 h with h | h
    · exact ha x (.inr ⟨i, h⟩)
    · exact hb x (.inr ⟨i, h⟩)

theorem AllSigned.silent {E : Env Sig} {k : KeyPair} {v : KeyVersion} {a : List (Out Sig)} (h : ∀ x, ¬ Sends x a) : AllSigned E k v a :=
  fun x hx => absurd hx (h x)

theorem respond_signed {α : Type} {E : Env Sig} {c : Core Sig} {codec : Codec α} {b1 b2 : Out Sig} {a : α} (h1 : ∀ x, ¬ Sends x [b1])
    (h2 : ∀ x, ¬ Sends x [b2]) : AllSigned E c.key c.keyVersion (respond E c codec b1 b2 a) := by
  unfold respond
  split
  · exact .silent (by simp [Sends])
  · exact .silent h1
  · split
    · rename_i hs
      intro x hx
      simp [Sends] at hx
      subst hx
      exact ⟨_, hs⟩
    · exact .silent h2

theorem request_signed {E : Env Sig} {c : Core Sig} {id : Id} {m : Res Msg} : AllSigned E c.key c.keyVersion (request E c id m).1 := by
  unfold request
  split
  · split
    · rename_i hs
      intro x hx
      simp [Sends] at hx
      subst hx
      exact ⟨_, hs⟩
    · exact .silent (by simp [Sends])
  · exact .silent (by simp [Sends])
  · exact .silent (by simp [Sends])

theorem dhtLoop_signed {E : Env Sig} {c : Core Sig} {cid : Id} : ∀ (ids : List Id) (k : Contacts), AllSigned E c.key c.keyVersion (dhtLoop E c cid ids k).1
  | [], k => .silent (by simp [dhtLoop, Sends])
  | id :: ids, k => by
    unfold dhtLoop
    have h := request_signed (E := E) (c := c) (id := id) (m := encode gatewayDHTDiscoverRequest E.pr (some c.id, some cid, 1, E.now + 10, [], []))
    split
    · rename_i he
      rw [he] at h
      exact h.append (.silent (by simp [Sends]))
    · rename_i he
      rw [he] at h
      exact h.append (dhtLoop_signed ids _)

theorem dhtV2Loop_signed {E : Env Sig} {cid : Id} : ∀ (rs : List Record) (c : Core Sig) (k : Contacts),
    AllSigned E c.key c.keyVersion (dhtV2Loop E cid c rs k).2.1
  | [], c, k => .silent (by simp [dhtV2Loop, Sends])
  | r :: rs, c, k => by
    unfold dhtV2Loop
    split
    · exact .silent (by simp [Sends])
    · rename_i id _
      split
      · exact .silent (by simp [Sends])
      · rename_i c' ch v hp
        obtain ⟨p, rfl⟩ := payPeer_frame hp
        have h := request_signed (E := E) (c := { c with payment := p }) (id := id)
          (m := encode gatewayDHTDiscoverRequestV2 E.pr (some c.id, some cid, 1, E.now + 10, ch.toList, E.showVoucher v))
        have spent : ∀ {o : List (Out Sig)}, AllSigned E c.key c.keyVersion o → AllSigned E c.key c.keyVersion (.paid (String.ofList r.address) v :: o) := by
          rintro o ho x (hx | ⟨i, hx⟩)
          · exact ho x (.inl (by simpa using hx))
          · exact ho x (.inr ⟨i, by simpa using hx⟩)
        split
        · rename_i he
          rw [he] at h
          exact (spent h).append (.silent (by simp [Sends]))
        · rename_i he
          rw [he] at h
          exact (spent h).append (dhtV2Loop_signed rs { c with payment := p } _)

theorem dhtOfferLoop_signed {E : Env Sig} {cid : Option Id} {nonce : Int} : ∀ (ids : List Id) (dss : List (List (List Char))) (c : Core Sig) (k : Contacts),
    AllSigned E c.key c.keyVersion (dhtOfferLoop E cid nonce c ids dss k).2.1
  | [], _, c, k => .silent (by simp [dhtOfferLoop, Sends])
  | _ :: _, [], c, k => .silent (by simp [dhtOfferLoop, Sends])
  | id :: ids, ds :: dss, c, k => by
    unfold dhtOfferLoop
    split
    · exact .silent (by simp [Sends])
    · rename_i g _
      split
      · exact .silent (by simp [Sends])
      · rename_i c' pay hp
        obtain ⟨p, rfl⟩ := payPeerOffer_frame hp
        have h := request_signed (E := E) (c := { c with payment := p }) (id := id)
          (m := encode gatewayDHTDiscoverOfferRequest E.pr
            (cid, nonce, ds, (pay.map (fun p => p.1.toList)).getD [], (pay.map (fun p => E.showVoucher p.2)).getD []))
        have spent : AllSigned E c.key c.keyVersion (pay.map (fun p => Out.paid (String.ofList g.address) p.2)).toList :=
          .silent (by cases pay <;> simp [Sends])
        dsimp only
        split
        · rename_i he
          rw [he] at h
          exact (spent.append h).append (.silent (by simp [Sends]))
        · rename_i he
          rw [he] at h
          exact (spent.append h).append (dhtOfferLoop_signed ids dss { c with payment := p } _)

theorem serve_signed (E : Env Sig) (c : Core Sig) (k : Kind) (m : Msg) : AllSigned E c.key c.keyVersion (serve E c k m).2 := by
  have quiet : ∀ o : List (Out Sig), (∀ x, ¬ Sends x o) → AllSigned E c.key c.keyVersion o := fun o h => .silent h
  have resp : ∀ {α : Type} {codec : Codec α} {b1 b2 : Out Sig} {a : α}, (∀ x, ¬ Sends x [b1]) → (∀ x, ¬ Sends x [b2]) →
      AllSigned E c.key c.keyVersion (respond E c codec b1 b2 a) := fun h1 h2 => respond_signed h1 h2
  cases k with
  | establishment =>
    simp only [serve]; unfold establishment
    repeat' split
    all_goals (try dsimp only)
    all_goals first | (refine resp ?_ ?_ <;> simp [Sends]; done) | (refine quiet _ ?_; simp [Sends]; done)
  | standard =>
    simp only [serve]; unfold standard
    repeat' split
    all_goals (try dsimp only)
    all_goals first | (refine resp ?_ ?_ <;> simp [Sends]; done) | (refine quiet _ ?_; simp [Sends]; done)
  | standardV2 =>
    simp only [serve]; unfold standardV2
    dsimp only
    repeat' split
    all_goals (try dsimp only)
    all_goals first | (refine resp ?_ ?_ <;> simp [Sends]; done) | (refine quiet _ ?_; simp [Sends]; done)
  | standardOffer =>
    simp only [serve]; unfold standardOffer
    dsimp only
    repeat' split
    all_goals (try dsimp only)
    all_goals first | (refine resp ?_ ?_ <;> simp [Sends]; done) | (refine quiet _ ?_; simp [Sends]; done)
  | dht =>
    simp only [serve]; unfold dht
    split
    · exact quiet _ (by simp [Sends])
    · exact quiet _ (by simp [Sends])
    · split
      · exact quiet _ (by simp [Sends])
      · split
        · exact quiet _ (by simp [Sends])
        · rename_i id _
          split
          · exact quiet _ (by simp [Sends])
          · split
            · exact quiet _ (by simp [Sends])
            · rename_i ids _
              have h := dhtLoop_signed (E := E) (c := c) (cid := id) ids ⟨[], [], []⟩
              split <;> rename_i he <;> rw [he] at h
              · exact h
              · exact h.append (resp (by simp [Sends]) (by simp [Sends]))
  | dhtV2 =>
    simp only [serve]; unfold dhtV2
    split
    · exact quiet _ (by simp [Sends])
    · exact quiet _ (by simp [Sends])
    · split
      · exact quiet _ (by simp [Sends])
      · split
        · exact quiet _ (by simp [Sends])
        · rename_i id _
          split
          · exact quiet _ (by simp [Sends])
          · rename_i rs _
            split
            · exact quiet _ (by simp [Sends])
            · exact quiet _ (by simp [Sends])
            · rename_i c1 amount hr
              obtain ⟨inb, rfl⟩ := receive_frame hr
              have h := dhtV2Loop_signed (E := E) (cid := id) rs { c with payment := { c.payment with inbound := inb } } ⟨[], [], []⟩
              obtain ⟨p, hf⟩ := dhtV2Loop_frame E id rs { c with payment := { c.payment with inbound := inb } } ⟨[], [], []⟩
              dsimp only
              generalize hw : (if amount < c.searchPrice * _ then [Out.status 500] else []) = warn
              have hwarn : AllSigned E c.key c.keyVersion warn := by
                subst hw
                split <;> exact quiet _ (by simp [Sends])
              split <;> rename_i he <;> rw [he] at h hf
              · exact hwarn.append h
              · rename_i c2 out kk
                dsimp only at hf
                subst hf
                exact (hwarn.append h).append (respond_signed (c := { c with payment := p }) (by simp [Sends]) (by simp [Sends]))
  | dhtOffer =>
    simp only [serve]; unfold dhtOffer
    split
    · exact quiet _ (by simp [Sends])
    · exact quiet _ (by simp [Sends])
    · rename_i cid nonce dss ids ch vo _
      split
      · exact quiet _ (by simp [Sends])
      · exact quiet _ (by simp [Sends])
      · rename_i c1 amount hr
        obtain ⟨inb, rfl⟩ := receive_frame hr
        have h := dhtOfferLoop_signed (E := E) (cid := cid) (nonce := nonce) ids dss { c with payment := { c.payment with inbound := inb } } ⟨[], [], []⟩
        obtain ⟨p, hf⟩ := dhtOfferLoop_frame E cid nonce ids dss { c with payment := { c.payment with inbound := inb } } ⟨[], [], []⟩
        dsimp only
        generalize hw : (if amount < _ then [Out.status 500] else []) = warn
        have hwarn : AllSigned E c.key c.keyVersion warn := by
          subst hw
          split <;> exact quiet _ (by simp [Sends])
        split <;> rename_i he <;> rw [he] at h hf
        · exact hwarn.append h
        · rename_i c2 out kk
          dsimp only at hf
          subst hf
          exact (hwarn.append h).append (respond_signed (c := { c with payment := p }) (by simp [Sends]) (by simp [Sends]))
  | peerDht =>
    simp only [serve]; unfold peerDht
    repeat' split
    all_goals (try dsimp only)
    all_goals first | (refine resp ?_ ?_ <;> simp [Sends]; done) | (refine quiet _ ?_; simp [Sends]; done)
  | peerDhtV2 =>
    simp only [serve]; unfold peerDhtV2
    repeat' split
    all_goals (try dsimp only)
    all_goals first | (refine resp ?_ ?_ <;> simp [Sends]; done) | (refine quiet _ ?_; simp [Sends]; done)
  | peerDhtOffer =>
    simp only [serve]; unfold peerDhtOffer
    dsimp only
    repeat' split
    all_goals (try dsimp only)
    all_goals first | (refine resp ?_ ?_ <;> simp [Sends]; done) | (refine quiet _ ?_; simp [Sends]; done)
  | publishDht =>
    simp only [serve]; unfold publishDht
    repeat' split
    all_goals (try dsimp only)
    all_goals first | (refine resp ?_ ?_ <;> simp [Sends]; done) | (refine quiet _ ?_; simp [Sends]; done)
  | publishGroup =>
    simp only [serve]; unfold publishGroup
    repeat' split
    all_goals (try dsimp only)
    all_goals first | (refine resp ?_ ?_ <;> simp [Sends]; done) | (refine quiet _ ?_; simp [Sends]; done)

theorem listOffers_signed (E : Env Sig) (c : Core Sig) (pid : Id) (req : Res Msg) : AllSigned E c.key c.keyVersion (listOffers E c pid req).2.1 := by
  unfold listOffers
  split
  · exact .silent (by simp [Sends])
  · exact .silent (by simp [Sends])
  split
  · exact .silent (by simp [Sends])
  rename_i q hq
  have one : ∀ {o : List (Out Sig)}, (∀ x, ¬ Sends x o) → AllSigned E c.key c.keyVersion (.asked pid q :: o) := by
    rintro o ho x (h | ⟨i, h⟩)
    · exact absurd (.inl (by simpa using h)) (ho x)
    · rcases List.mem_cons.1 h with h | h
      · cases h
        exact ⟨_, hq⟩
      · exact absurd (.inr ⟨i, h⟩) (ho x)
  repeat' split
  all_goals first
    | (refine one ?_; simp [Sends]; done)
    | (rename_i hs
       rintro x (h | ⟨i, h⟩)
       · simp at h
         subst h
         exact ⟨_, hs⟩
       · simp at h
         obtain ⟨-, rfl⟩ := h
         exact ⟨_, hq⟩)

end FcRetrieval.Gateway
