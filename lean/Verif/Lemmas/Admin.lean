import Verif.Spec.Admin
import Verif.Lemmas.Gateway
import Verif.Props.Message
import Verif.Props.Codecs
/-! Lemmas about the admin libraries and the admin API of the gateway. -/
set_option linter.unusedSimpArgs false

namespace FcRetrieval.Admin
open FcRetrieval.Ids (Id)
open FcRetrieval.Crypto (Prims KeyPair KeyVersion)
open FcRetrieval.Message (Msg)
open FcRetrieval.Register (Record)
open FcRetrieval.Wire (Codec encode decode)
open FcRetrieval.Codecs
open FcRetrieval.GatewayAdmin (Node)
open FcRetrieval.Gateway (res_ok_of_bind verify_snd)

variable {S : Type}

/-- Signing a message that is encoded. -/
theorem signs {P : Prims} {k : KeyPair} {v : KeyVersion} (h : ∀ b, (Crypto.signMessage P k v b).isSome) (m : Msg) :
    ∃ sig, Crypto.signMessage P k v (Message.toSign m) = some sig ∧ Message.sign P k v m = ({ m with signature := sig }, true) := by
  obtain ⟨sig, hs⟩ := Option.isSome_iff_exists.1 (h (Message.toSign m))
  exact ⟨sig, hs, by unfold Message.sign; rw [hs]⟩

/-- What `ask` does with a request that can be encoded. -/
theorem ask_sends {A : Env} (hA : HasKey A) {r : Record} {pk : KeyPair} (hpk : Crypto.decodePublicKey r.signingKey = .ok pk) {m : Msg} {request : Res Msg} (hm : request = .ok m) :
    ∃ sig, ask A r request = ([(r.netAdmin, { m with signature := sig })],
      match A.exchange r.netAdmin { m with signature := sig } with
      | none => .err
      | some a => if (Message.verify A.P pk a).2 then .ok a else .err) := by
  obtain ⟨k, v, hk, hs⟩ := hA
  obtain ⟨sig, -, hsig⟩ := signs hs m
  refine ⟨sig, ?_⟩
  unfold ask
  simp only [hpk, hm, hk, hsig]
  cases A.exchange r.netAdmin { m with signature := sig } <;> rfl

theorem sign_eq {P : Prims} {k : KeyPair} {v : KeyVersion} {m m' : Msg} (h : Message.sign P k v m = (m', true)) : ∃ sig, m' = { m with signature := sig } := by
  unfold Message.sign at h
  split at h
  · simp at h
  · simp only [Prod.mk.injEq, and_true] at h
    exact ⟨_, h.symm⟩

theorem encode_type {α : Type} {codec : Codec α} {pr : Message.Protocol} {a : α} {m : Msg} (h : encode codec pr a = .ok m) : m.type = codec.code := by
  unfold encode at h
  obtain ⟨_, -, h⟩ := res_ok_of_bind h
  obtain ⟨_, -, h⟩ := res_ok_of_bind h
  simp only [pure, Res.ok.injEq] at h
  rw [← h]
  rfl

theorem decode_other {α β : Type} {c : Codec α} {c' : Codec β} {m : Msg} (h : m.type = c.code) (hne : c.code ≠ c'.code) : decode c' m = .err := by
  unfold decode
  rw [if_pos (by rw [h]; exact hne)]

theorem decode_type {α : Type} {c : Codec α} {m : Msg} {a : α} (h : decode c m = .ok a) : m.type = c.code := (Gateway.decode_inv h).1

/-- What `ask` returns is signed with the key in the record, and was read after the request was sent. -/
theorem ask_signed {A : Env} {r : Record} {request : Res Msg} {a : Msg} (h : (ask A r request).2 = .ok a) :
    SignedBy A.P r a ∧ ∃ m sig, request = .ok m ∧ (ask A r request).1 = [(r.netAdmin, { m with signature := sig })] ∧ A.exchange r.netAdmin { m with signature := sig } = some a := by
  unfold ask at h ⊢
  cases hpk : Crypto.decodePublicKey r.signingKey with
  | panic => simp [hpk] at h
  | err => simp [hpk] at h
  | ok pk =>
    simp only [hpk] at h ⊢
    cases request with
    | panic => simp at h
    | err => simp at h
    | ok m =>
      cases hk : A.key with
      | none => simp [hk] at h
      | some kv =>
        obtain ⟨k, v⟩ := kv
        simp only [hk] at h ⊢
        rcases hs : Message.sign A.P k v m with ⟨m', _ | _⟩
        · simp [hs] at h
        · obtain ⟨sig, rfl⟩ := sign_eq hs
          simp only [hs] at h ⊢
          cases he : A.exchange r.netAdmin { m with signature := sig } with
          | none => simp [he] at h
          | some a' =>
            simp only [he] at h
            split at h
            · rename_i hv
              simp only [Res.ok.injEq] at h
              subst h
              exact ⟨⟨pk, hpk, verify_snd.1 hv⟩, m, sig, rfl, rfl, he⟩
            · cases h

theorem flag_ok {codec : Codec Bool} {x : Sent × Res Msg} (h : (flag codec x).2 = .ok ()) : ∃ a, x.2 = .ok a ∧ decode codec a = .ok true := by
  unfold flag at h
  obtain ⟨a, ha, h⟩ := res_ok_of_bind h
  obtain ⟨ok, h1, h2⟩ := res_ok_of_bind h
  split at h2
  · rename_i hok
    rw [hok] at h1
    exact ⟨a, ha, h1⟩
  · cases h2

theorem respond_reply {α : Type} {G : GatewayAdmin.Env S} {n : Node S} {codec : Codec α} {a : α} {more : List GatewayAdmin.Out} {x : Msg}
    (h : reply (GatewayAdmin.respond G n codec a ++ more) = some x) : x.type = codec.code := by
  unfold GatewayAdmin.respond at h
  split at h
  · cases h
  · cases h
  · rename_i m hm
    split at h
    · cases h
    · cases h
    · rename_i m' hm'
      simp only [List.cons_append, reply, Option.some.injEq] at h
      subst h
      unfold GatewayAdmin.signMsg at hm'
      split at hm'
      · cases hm'
      · split at hm'
        · rename_i hs
          simp only [Res.ok.injEq] at hm'
          subst hm'
          obtain ⟨sig, rfl⟩ := sign_eq hs
          exact (encode_type hm :)
        · cases hm'

/-- The answer of a gateway whose key belongs to the record. -/
theorem respond_owned {A : Env} {r : Record} {G : GatewayAdmin.Env S} {n : Node S} (hG : G.P = A.P) (hc : Crypto.Correct A.P) {k : KeyPair} {v : KeyVersion} (hk : n.key = some (k, v))
    (ho : Owns A.P r k v) {α : Type} {codec : Codec α} {a : α} (hd : Delivers codec G.pr a) :
    ∃ m', GatewayAdmin.respond G n codec a = [.message m'] ∧ decode codec m' = .ok a ∧
      ∀ pk, Crypto.decodePublicKey r.signingKey = .ok pk → (Message.verify A.P pk m').2 = true := by
  obtain ⟨m, he, -, -, -, hsig⟩ := hd
  obtain ⟨h1, h2, pk, h3, h4, h5⟩ := ho
  obtain ⟨sig, hs, hsign⟩ := signs h2 m
  refine ⟨{ m with signature := sig }, ?_, (hsig sig).2, fun pk' hpk' => ?_⟩
  · unfold GatewayAdmin.respond GatewayAdmin.signMsg
    simp only [he, hk, hG, hsign]
  · rw [h3] at hpk'
    cases hpk'
    exact (Message.C27_signed_verifies A.P hc k pk v h1 ⟨h4, h5⟩ m _ hsign).1

/-- The answer of a gateway whose key does not belong to the record. -/
theorem respond_stranger {A : Env} {r : Record} {G : GatewayAdmin.Env S} {n : Node S} (hG : G.P = A.P) {k : KeyPair} {v : KeyVersion} (hk : n.key = some (k, v))
    (ho : Stranger A.P r k v) {α : Type} {codec : Codec α} {a : α} (hd : Delivers codec G.pr a) :
    ∃ m', GatewayAdmin.respond G n codec a = [.message m'] ∧
      ∀ pk, Crypto.decodePublicKey r.signingKey = .ok pk → (Message.verify A.P pk m').2 = false := by
  obtain ⟨m, he, -, -, -, hsig⟩ := hd
  obtain ⟨-, h2, pk, h3, h4⟩ := ho
  obtain ⟨sig, hs, hsign⟩ := signs h2 m
  refine ⟨{ m with signature := sig }, ?_, fun pk' hpk' => ?_⟩
  · unfold GatewayAdmin.respond GatewayAdmin.signMsg
    simp only [he, hk, hG, hsign]
  · rw [h3] at hpk'
    cases hpk'
    cases hv : (Message.verify A.P pk { m with signature := sig }).2 with
    | false => rfl
    | true => exact absurd (verify_snd.1 hv) (h4 _ _ hs)

/-- What a call to a gateway running this code does. -/
theorem ask_served {A : Env} {r : Record} {G : GatewayAdmin.Env S} {n : Node S} (hb : Behind A r G n) (hA : HasKey A) {pk : KeyPair} (hpk : Crypto.decodePublicKey r.signingKey = .ok pk)
    {α : Type} {codec : Codec α} {a : α} (hd : Delivers codec A.pr a) {kind : GatewayAdmin.Kind} (hk : GatewayAdmin.kindOf codec.code = some kind) :
    ∃ m, decode codec m = .ok a ∧ received G n [(r.netAdmin, m)] = (GatewayAdmin.serve G n kind m).1 ∧
      ask A r (encode codec A.pr a) = ([(r.netAdmin, m)],
        match reply (GatewayAdmin.serve G n kind m).2 with
        | none => .err
        | some ans => if (Message.verify A.P pk ans).2 then .ok ans else .err) := by
  obtain ⟨m, he, ht, -, -, hsig⟩ := hd
  obtain ⟨sig, hs⟩ := ask_sends hA hpk he
  refine ⟨{ m with signature := sig }, (hsig sig).2, ?_, ?_⟩
  · simp only [received, ht, hk]
  · rw [hs, hb.served]
    simp only [ht, hk, Option.bind_some]

end FcRetrieval.Admin
