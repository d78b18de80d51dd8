import Verif.Model.KeyId
import Verif.Spec.Crypto
import Verif.Lemmas.Ids
/-! # Node identifiers of keys (C86) -/

namespace FcRetrieval.Crypto
open FcRetrieval.Ids (Id Proper)

/-- The identifier of a key is the hash of the algorithm byte 1 and the 65 bytes of the public key; it is the same for a key
pair and for its public part alone. -/
theorem C86_value (P : Prims) (hP : ∀ m, (P.hash m).length = 32) (k : KeyPair) (hk : k.alg = sigAlg) :
    nodeIdFromPublicKey P k = some (P.hash (1 :: publicPart P k)) ∧
    nodeIdFromPublicKey P ⟨none, some (publicPart P k), sigAlg⟩ = nodeIdFromPublicKey P k := by
  have e : ∀ k : KeyPair, k.alg = sigAlg → nodeIdFromPublicKey P k = some (P.hash (1 :: publicPart P k)) := by
    intro k hk
    unfold nodeIdFromPublicKey hashPublicKey
    rw [if_neg (by simp [hk]), hk]
    exact Ids.fromBytes_of_proper (hP _)
  refine ⟨e k hk, ?_⟩
  rw [e k hk, e _ rfl]
  rfl

/-- Two keys with the same identifier have the same public key, unless the hash collides on these two. -/
theorem C86_distinct_keys (P : Prims) (hP : ∀ m, (P.hash m).length = 32) (k k' : KeyPair) (id : Id)
    (hno : P.hash (1 :: publicPart P k) = P.hash (1 :: publicPart P k') → publicPart P k = publicPart P k')
    (h : nodeIdFromPublicKey P k = some id) (h' : nodeIdFromPublicKey P k' = some id) :
    publicPart P k = publicPart P k' := by
  have ha : k.alg = sigAlg := by
    apply Classical.byContradiction; intro hne
    simp [nodeIdFromPublicKey, hashPublicKey, hne] at h
  have ha' : k'.alg = sigAlg := by
    apply Classical.byContradiction; intro hne
    simp [nodeIdFromPublicKey, hashPublicKey, hne] at h'
  rw [(C86_value P hP k ha).1] at h
  rw [(C86_value P hP k' ha').1] at h'
  exact hno (by rw [Option.some.inj h, Option.some.inj h'])

/-- A key of another algorithm has no identifier: that is the only error. -/
theorem C86_errors (P : Prims) (hP : ∀ m, (P.hash m).length = 32) (k : KeyPair) :
    nodeIdFromPublicKey P k = none ↔ k.alg ≠ sigAlg := by
  constructor
  · intro h ha
    rw [(C86_value P hP k ha).1] at h
    cases h
  · intro ha
    simp [nodeIdFromPublicKey, hashPublicKey, ha]

/-- Verification against a hashed public key accepts exactly the signatures from which a key with that identifier is
recovered; so if recovery undoes signing it accepts what the owner of the identifier signs. -/
theorem C86_verify_by_identifier (recover : Bytes → Bytes → Option Bytes) (P : Prims) (hP : ∀ m, (P.hash m).length = 32)
    (hrec : ∀ sk d sig, P.sign d sk = some sig → recover d sig = some (P.pub sk))
    (k : KeyPair) (hk : PrivateKey k) (m sig : Bytes) (hs : keySign P k m = some sig) (id : Id)
    (hid : nodeIdFromPublicKey P k = some id) :
    retrievalV1Verify recover P sig m id = some true ∧
    ∀ pk' : Bytes, recover (P.hash m) sig = some pk' → ∀ id' : Bytes,
      (retrievalV1Verify recover P sig m id' = some true ↔ id' = P.hash (1 :: pk')) := by
  obtain ⟨h1, h2, b, h3, h4⟩ := hk
  rw [(C86_value P hP k h1).1] at hid
  have hid := Option.some.inj hid
  unfold keySign at hs
  rw [if_neg (by simp [h1])] at hs
  have hr := hrec _ _ _ hs
  refine ⟨?_, ?_⟩
  · unfold retrievalV1Verify
    rw [hr, ← hid]
    simp [publicPart, h2, sigAlg]
  · intro pk' hpk id'
    unfold retrievalV1Verify
    rw [hpk]
    simp only [Option.some.injEq]
    rw [decide_eq_true_iff]
    exact eq_comm

/-- The assumptions can be met. -/
example : (∀ m, (toy.hash m).length = 32) ∧ nodeIdFromPublicKey toy ⟨some (List.replicate 32 5), none, 1⟩ ≠ none := by
  constructor
  · intro m; simp [toy]; omega
  · decide +kernel

end FcRetrieval.Crypto
