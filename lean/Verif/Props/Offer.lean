import Verif.Props.Merkle
import Verif.Props.Crypto
import Verif.Lemmas.Utf8
import Verif.Lemmas.GoMember
import Verif.Spec.Offer
/-!
# Properties of offers and sub-offers (C16–C19, C84, C85)
-/

set_option linter.unusedSimpArgs false

namespace FcRetrieval.Offer
open FcRetrieval.Ids (Id Proper)
open FcRetrieval.Merkle (Hash exId exId_proper toyHash)
open FcRetrieval.Crypto (Prims KeyPair KeyVersion PrivateKey Correct Binding publicPart sigAlg toy)

/-! ## concrete data for the examples -/

/-- An offer of two contents. -/
def exOffer : CidOffer :=
  { providerID := some (exId 9), cids := [exId 1, exId 2], price := 5, expiry := 1700000000, qos := 3, signature := [],
    merkleRoot := (Merkle.rootHex toyHash [exId 1, exId 2]).getD [] }
theorem exOffer_built : Built toyHash exOffer := by
  refine ⟨⟨⟨exId 9, rfl, exId_proper 9⟩, ?_, by decide, by decide, by decide, by decide⟩, by simp [exOffer], rfl⟩
  intro c hc
  simp [exOffer] at hc
  rcases hc with rfl | rfl <;> exact exId_proper _
/-- A private key. -/
def exKey : KeyPair := ⟨some (List.replicate 32 5), none, 1⟩
theorem exKey_private : PrivateKey exKey := ⟨rfl, rfl, _, rfl, rfl⟩

/-! ## C16 digest -/

theorem be64_length (n : Nat) : (be64 n).length = 8 := rfl

theorem be32_inj {n m : Nat} (hn : n < 4294967296) (hm : m < 4294967296) (h : be32 n = be32 m) : n = m := by
  have := Merkle.u32_be32 n hn
  rw [h, Merkle.u32_be32 m hm] at this
  exact this.symm

theorem be32_mod (n : Nat) : be32 (n % 4294967296) = be32 n := by
  have e : ∀ a b : Nat, a % 256 = b % 256 → UInt8.ofNat a = UInt8.ofNat b := by
    intro a b h
    apply UInt8.toNat.inj
    simp only [UInt8.toNat_ofNat']
    exact h
  unfold be32
  rw [e (n % 4294967296 / 16777216) (n / 16777216) (by omega), e (n % 4294967296 / 65536) (n / 65536) (by omega),
    e (n % 4294967296 / 256) (n / 256) (by omega), e (n % 4294967296) n (by omega)]

theorem be64_inj {n m : Nat} (hn : n < 2 ^ 64) (hm : m < 2 ^ 64) (h : be64 n = be64 m) : n = m := by
  unfold be64 at h
  obtain ⟨h1, h2⟩ := List.append_inj h rfl
  rw [← be32_mod n, ← be32_mod m] at h2
  have e1 := be32_inj (by omega) (by omega) h1
  have e2 := be32_inj (by omega) (by omega) h2
  omega

theorem be64I_inj {n m : Int} (hn : -(2 ^ 63) ≤ n ∧ n < 2 ^ 63) (hm : -(2 ^ 63) ≤ m ∧ m < 2 ^ 63) (h : be64I n = be64I m) :
    n = m := by
  have := be64_inj (by omega) (by omega) h
  omega

theorem flatten32_length : ∀ l : List Id, (∀ c ∈ l, Proper c) → (l.map Ids.toBytes).flatten.length = 32 * l.length
  | [], _ => rfl
  | c :: l, h => by
    have hc : c.length = 32 := h c (by simp)
    have := flatten32_length l (fun d hd => h d (by simp [hd]))
    simp only [List.map_cons, List.flatten_cons, List.length_append, List.length_cons, this, Ids.toBytes, hc]
    omega

theorem flatten32_inj : ∀ l l' : List Id, (∀ c ∈ l, Proper c) → (∀ c ∈ l', Proper c) →
    (l.map Ids.toBytes).flatten = (l'.map Ids.toBytes).flatten → l = l'
  | [], [], _, _, _ => rfl
  | [], c :: l', _, h', h => by
    have := congrArg List.length h
    rw [flatten32_length _ h'] at this
    simp at this
  | c :: l, [], h, _, e => by
    have := congrArg List.length e
    rw [flatten32_length _ h] at this
    simp at this
  | c :: l, c' :: l', h, h', e => by
    have hc : c.length = 32 := h c (by simp)
    have hc' : c'.length = 32 := h' c' (by simp)
    simp only [List.map_cons, List.flatten_cons, Ids.toBytes] at e
    obtain ⟨e1, e2⟩ := List.append_inj e (hc.trans hc'.symm)
    rw [e1, flatten32_inj l l' (fun d hd => h d (by simp [hd])) (fun d hd => h' d (by simp [hd])) e2]

/-- The bytes hashed for the digest determine provider, CIDs with their order, price, expiry and quality of service, and are
determined by them. -/
theorem C16_preimage_injective (o o' : CidOffer) (h : InRange o) (h' : InRange o') :
    digestInput o = digestInput o' ↔ terms o = terms o' := by
  obtain ⟨⟨p, hp, hpp⟩, hc, h1, h2, h3, h4⟩ := h
  obtain ⟨⟨p', hp', hpp'⟩, hc', h1', h2', h3', h4'⟩ := h'
  unfold digestInput terms
  rw [hp, hp']
  simp only [Res.ok.injEq, Prod.mk.injEq, Option.some.injEq]
  constructor
  · intro e
    simp only [List.append_assoc, Ids.toBytes] at e
    obtain ⟨e1, e⟩ := List.append_inj e (hpp.trans hpp'.symm)
    have e2 : (o.cids.map Ids.toBytes).flatten = (o'.cids.map Ids.toBytes).flatten ∧
        be64 o.price ++ (be64I o.expiry ++ be64 o.qos) = be64 o'.price ++ (be64I o'.expiry ++ be64 o'.qos) :=
      List.append_inj' e rfl
    obtain ⟨e2, e⟩ := e2
    obtain ⟨e3, e⟩ := List.append_inj e rfl
    obtain ⟨e4, e5⟩ := List.append_inj e rfl
    exact ⟨e1, flatten32_inj _ _ hc hc' e2, be64_inj h1 h1' e3, be64I_inj ⟨h3, h4⟩ ⟨h3', h4'⟩ e4, be64_inj h2 h2' e5⟩
  · rintro ⟨e1, e2, e3, e4, e5⟩
    rw [e1, e2, e3, e4, e5]

/-- Offers with the same digest have the same terms, unless the hash collides on them. -/
theorem C16_digest_identifies (H512 : Hash) (o o' : CidOffer) (h : InRange o) (h' : InRange o')
    (hno : ∀ b b', digestInput o = .ok b → digestInput o' = .ok b' → H512 b = H512 b' → b = b') :
    digest H512 o = digest H512 o' ↔ terms o = terms o' := by
  rw [← C16_preimage_injective o o' h h']
  obtain ⟨⟨p, hp, _⟩, _⟩ := h
  obtain ⟨⟨p', hp', _⟩, _⟩ := h'
  unfold digest
  have e : ∃ b, digestInput o = .ok b := by unfold digestInput; rw [hp]; exact ⟨_, rfl⟩
  have e' : ∃ b, digestInput o' = .ok b := by unfold digestInput; rw [hp']; exact ⟨_, rfl⟩
  obtain ⟨b, hb⟩ := e
  obtain ⟨b', hb'⟩ := e'
  rw [hb, hb']
  simp only [Res.bind_ok, Res.pure_ok, Res.ok.injEq]
  exact ⟨hno b b' hb hb', fun e => by rw [e]⟩

/-- Neither the signature nor the Merkle root influences the digest. -/
theorem C16_signature_not_in_digest (H512 : Hash) (o : CidOffer) (s r : List Char) :
    digest H512 { o with signature := s, merkleRoot := r } = digest H512 o := rfl

/-- The text of a digest decodes to the digest. -/
theorem C16_digest_text_round_trip (d : Bytes) (h : d.length = 32) : decodeDigest (encodeDigest d) = some d := by
  unfold decodeDigest encodeDigest
  rw [b64Decode_encode]
  simp only [h, Nat.sub_self, List.replicate_zero, List.append_nil]
  rw [List.take_of_length_le (by omega)]

/-- Two digests with the same text are equal. -/
theorem C16_digest_text_injective (d d' : Bytes) (h : encodeDigest d = encodeDigest d') : d = d' := by
  unfold encodeDigest at h
  have := b64Decode_encode d
  rw [h, b64Decode_encode] at this
  exact (Option.some.inj this).symm

example : InRange exOffer ∧ InRange { exOffer with price := 6 } ∧
    digestInput exOffer ≠ digestInput { exOffer with price := 6 } := by
  refine ⟨exOffer_built.1, ?_, ?_⟩
  · obtain ⟨h1, h2, _, h4, h5, h6⟩ := exOffer_built.1
    exact ⟨h1, h2, by decide, h4, h5, h6⟩
  · decide +kernel
example : decodeDigest (encodeDigest (exId 4)) = some (exId 4) := C16_digest_text_round_trip _ (exId_proper 4)

/-! ## C17 signatures -/

theorem signJson_inj {p p' : Id} {r r' : List Char} {pr pr' q q' : Nat} {e e' : Int}
    (h : signJson p r pr e q = signJson p' r' pr' e' q') : p = p' ∧ r = r' ∧ pr = pr' ∧ e = e' ∧ q = q' := by
  simp only [signJson, Ids.marshal, jsonBytes, Json.obj.injEq, List.cons.injEq, Prod.mk.injEq, Json.str.injEq, Json.num.injEq,
    true_and, and_true] at h
  obtain ⟨h1, h2, h3, h4, h5⟩ := h
  exact ⟨C16_digest_text_injective _ _ h1, h2, by omega, h4, by omega⟩

/-- The signed bytes determine the signed terms, for all values of the fields. -/
theorem C17_signed_bytes_injective (o o' : CidOffer) (hp : o.providerID ≠ none) (hp' : o'.providerID ≠ none) :
    toSign o.providerID o.merkleRoot o.price o.expiry o.qos = toSign o'.providerID o'.merkleRoot o'.price o'.expiry o'.qos ↔
      signedTerms o = signedTerms o' := by
  cases hop : o.providerID with
  | none => exact absurd hop hp
  | some p =>
    cases hop' : o'.providerID with
    | none => exact absurd hop' hp'
    | some p' =>
      simp only [toSign, signedTerms, hop, hop', Res.ok.injEq, Prod.mk.injEq, Option.some.injEq]
      constructor
      · intro h
        exact signJson_inj (json_bytes_inj h)
      · rintro ⟨rfl, h2, h3, h4, h5⟩
        rw [h2, h3, h4, h5]

/-- An offer verifies under a key exactly if its signature string is one for the JSON text of provider, root, price, expiry and
quality of service. -/
theorem C17_verify_iff (P : Prims) (k : KeyPair) (o : CidOffer) (p : Id) (hp : o.providerID = some p) :
    (verify P k o = .ok () ↔
      Crypto.verifyMessage P k o.signature (utf8Bytes (render (.obj [("provider_id", .str (b64Encode p)),
        ("merkle_root", .str o.merkleRoot), ("price", .num o.price), ("expiry", .num o.expiry), ("qos", .num o.qos)]))) = some true) ∧
    (verify P k o = .ok () ∨ verify P k o = .err) := by
  unfold verify toSign checkSig signJson Ids.marshal jsonBytes
  rw [hp]
  simp only [Res.bind_ok]
  generalize Crypto.verifyMessage P k o.signature _ = v
  match v with
  | some true => simp
  | some false => simp
  | none => simp

/-- Signing an offer and verifying it with the matching public key succeeds; signing changes nothing but the signature. -/
theorem C17_signed_verifies (P : Prims) (hP : Correct P) (k pk : KeyPair) (v : KeyVersion) (hk : PrivateKey k)
    (hpk : pk.alg = sigAlg ∧ publicPart P pk = publicPart P k) (o o' : CidOffer) (h : sign P k v o = .ok o') :
    verify P pk o' = .ok () ∧ ∃ s, o' = { o with signature := s } := by
  unfold sign at h
  cases hr : toSign o.providerID o.merkleRoot o.price o.expiry o.qos with
  | err => rw [hr] at h; simp at h
  | panic => rw [hr] at h; simp at h
  | ok raw =>
    rw [hr] at h
    simp only [Res.bind_ok] at h
    cases hs : Crypto.signMessage P k v raw with
    | none => rw [hs] at h; simp [Res.ofOption] at h
    | some s =>
      rw [hs] at h
      simp only [Res.ofOption, Res.bind_ok, Res.pure_ok, Res.ok.injEq] at h
      subst h
      refine ⟨?_, s, rfl⟩
      unfold verify
      simp only [hr, Res.bind_ok]
      unfold checkSig
      rw [Crypto.C34_signed_verifies P hP k pk v raw s hk hpk hs]

example : ∃ o', sign toy exKey 1 exOffer = .ok o' ∧ verify toy exKey o' = .ok () := by
  refine ⟨{ exOffer with signature := hexEncode (be32 1 ++ (toy.hash (utf8Bytes (render (signJson (exId 9) exOffer.merkleRoot 5 1700000000 3))) ++ List.replicate 33 9)) }, ?_, ?_⟩
  · decide +kernel
  · decide +kernel

/-- A signature binds the terms: if the same signature string verifies for two offers under one key, they have the same signed
terms, unless the hash collides on the two texts.  So changing provider, root, price, expiry or quality of service of a
verified offer makes it fail. -/
theorem C17_signature_binds (P : Prims) (k : KeyPair) (hb : Binding P (publicPart P k)) (o o' : CidOffer)
    (hs : o.signature = o'.signature)
    (hno : ∀ b b', toSign o.providerID o.merkleRoot o.price o.expiry o.qos = .ok b →
      toSign o'.providerID o'.merkleRoot o'.price o'.expiry o'.qos = .ok b' → P.hash b = P.hash b' → b = b')
    (h : verify P k o = .ok ()) (h' : verify P k o' = .ok ()) : signedTerms o = signedTerms o' := by
  have aux : ∀ o : CidOffer, verify P k o = .ok () → o.providerID ≠ none ∧
      ∃ b, toSign o.providerID o.merkleRoot o.price o.expiry o.qos = .ok b ∧ Crypto.verifyMessage P k o.signature b = some true := by
    intro o h
    unfold verify at h
    cases hr : toSign o.providerID o.merkleRoot o.price o.expiry o.qos with
    | err => rw [hr] at h; simp at h
    | panic => rw [hr] at h; simp at h
    | ok raw =>
      rw [hr] at h
      simp only [Res.bind_ok, checkSig] at h
      refine ⟨?_, raw, rfl, ?_⟩
      · intro hn; rw [hn] at hr; simp [toSign] at hr
      · split at h
        · assumption
        · cases h
  obtain ⟨hp, b, hb1, hv⟩ := aux o h
  obtain ⟨hp', b', hb1', hv'⟩ := aux o' h'
  rw [← hs] at hv'
  have e := hno b b' hb1 hb1' (Crypto.C34_no_other_message P k hb _ _ _ hv hv')
  apply (C17_signed_bytes_injective o o' hp hp').1
  rw [hb1, hb1', e]

/-- Changing one field of a verified offer: spelled out for the price. -/
theorem C17_price_change_rejected (P : Prims) (k : KeyPair) (hb : Binding P (publicPart P k)) (o : CidOffer) (price : Nat)
    (hne : price ≠ o.price)
    (hno : ∀ b b', toSign o.providerID o.merkleRoot o.price o.expiry o.qos = .ok b →
      toSign o.providerID o.merkleRoot price o.expiry o.qos = .ok b' → P.hash b = P.hash b' → b = b')
    (h : verify P k o = .ok ()) : verify P k { o with price := price } ≠ .ok () := by
  intro h'
  have := C17_signature_binds P k hb o { o with price := price } rfl hno h h'
  simp only [signedTerms, Prod.mk.injEq] at this
  exact hne this.2.2.1.symm

/-- The carried list of CIDs does not matter, other than through the root; and a sub-offer verifies exactly when an offer with
the same signed terms and signature does. -/
theorem C17_only_signed_terms_matter (P : Prims) (k : KeyPair) (o : CidOffer) (cids : List Id) (s : SubOffer)
    (hs : subSignedTerms s = signedTerms o) (hsig : s.signature = o.signature) :
    verify P k { o with cids := cids } = verify P k o ∧ subVerify P k s = verify P k o := by
  refine ⟨rfl, ?_⟩
  simp only [subSignedTerms, signedTerms, Prod.mk.injEq] at hs
  obtain ⟨h1, h2, h3, h4, h5⟩ := hs
  unfold subVerify verify
  rw [h1, h2, h3, h4, h5, hsig]

/-! ## C18 sub-offers -/

/-- Each CID of an offer gives a sub-offer with the terms of the offer, whose Merkle proof verifies and whose signature
verifies exactly when that of the offer does. -/
theorem C18_sub_offer_verifies (H : Hash) (P : Prims) (k : KeyPair) (o : CidOffer) (ho : Built H o) (c : Id) (hc : c ∈ o.cids) :
    verifyMerkleProof H (subOffer H o c) = .ok () ∧
    subVerify P k (subOffer H o c) = verify P k o ∧
    (subOffer H o c).subCID = some c ∧ subSignedTerms (subOffer H o c) = signedTerms o ∧
    (subOffer H o c).signature = o.signature := by
  obtain ⟨⟨_, hp, _⟩, _, hroot⟩ := ho
  obtain ⟨root, hr, hv⟩ := Merkle.C12_generated_proof_verifies H o.cids hp c hc
  rw [hroot] at hr
  cases hr
  refine ⟨?_, rfl, rfl, rfl, rfl⟩
  unfold verifyMerkleProof subOffer
  simp only [hv]

/-- So a sub-offer of a freshly signed offer passes both checks. -/
theorem C18_signed_sub_offer_verifies (H : Hash) (P : Prims) (hP : Correct P) (k pk : KeyPair) (v : KeyVersion)
    (hk : PrivateKey k) (hpk : pk.alg = sigAlg ∧ publicPart P pk = publicPart P k) (o o' : CidOffer) (ho : Built H o)
    (h : sign P k v o = .ok o') (c : Id) (hc : c ∈ o.cids) :
    verifyMerkleProof H (subOffer H o' c) = .ok () ∧ subVerify P pk (subOffer H o' c) = .ok () := by
  obtain ⟨hv, s, hs⟩ := C17_signed_verifies P hP k pk v hk hpk o o' h
  have ho' : Built H o' := by subst hs; exact ho
  have hc' : c ∈ o'.cids := by subst hs; exact hc
  obtain ⟨h1, h2, _⟩ := C18_sub_offer_verifies H P pk o' ho' c hc'
  exact ⟨h1, h2.trans hv⟩

/-- For a content that the offer does not contain a sub-offer is built all the same, without an error; its Merkle proof is
rejected, unless the content is the root of the offer. -/
theorem C18_foreign_content_rejected (H : Hash) (o : CidOffer) (ho : Built H o) (c : Id) (hc : Proper c) (hnot : c ∉ o.cids)
    (hr : hexEncode c ≠ o.merkleRoot) : verifyMerkleProof H (subOffer H o c) = .err := by
  obtain ⟨⟨_, hp, _⟩, hne, hroot⟩ := ho
  unfold verifyMerkleProof subOffer
  simp only
  rw [Merkle.C67_missing_content_refuted H o.cids hp hne c hc hnot]
  simp [Merkle.verify, Merkle.verifyLoop, hr]

example : verifyMerkleProof toyHash (subOffer toyHash exOffer (exId 2)) = .ok () :=
  (C18_sub_offer_verifies toyHash toy exKey exOffer exOffer_built (exId 2) (by simp [exOffer])).1
example : verifyMerkleProof toyHash (subOffer toyHash exOffer (exId 3)) = .err := by decide +kernel

/-- The constructor: an error exactly when there is no CID; otherwise the offer has the given terms, no signature, and the
root of its CIDs. -/
theorem C18_new_offer (H : Hash) (p : Option Id) (cids : List Id) (price : Nat) (expiry : Int) (qos : Nat) :
    (newOffer H p cids price expiry qos = none ↔ cids = []) ∧
    ∀ o, newOffer H p cids price expiry qos = some o →
      terms o = (p, cids, price, expiry, qos) ∧ o.signature = [] ∧ Merkle.rootHex H cids = some o.merkleRoot := by
  have hr := (Merkle.C12_root_exists H cids).1
  unfold newOffer terms
  by_cases h : cids = []
  · subst h; simp
  · have hl : ¬ cids.length < 1 := by
      have := List.length_pos_iff.2 h; omega
    rw [if_neg hl]
    cases hx : Merkle.rootHex H cids with
    | none => exact absurd (hr.1 hx) h
    | some r =>
      refine ⟨by simp [h], ?_⟩
      intro o ho
      simp only [Option.some.injEq] at ho
      subst ho
      exact ⟨rfl, rfl, rfl⟩

/-! ## C19 JSON -/

theorem decList_strs (l : List (List Char)) : decList decStr (some (jsonStrs l)) = some l := by
  unfold decList jsonStrs
  exact Merkle.mapM_map_some Json.str (fun x => decStr (some x)) l (fun _ _ => rfl)

theorem mapFromString_mapToString : ∀ l : List Id, (∀ c ∈ l, Proper c) → Ids.mapFromString (Ids.mapToString l) = some l
  | [], _ => rfl
  | c :: l, h => by
    have ih := mapFromString_mapToString l (fun d hd => h d (by simp [hd]))
    simp only [Ids.mapToString, List.map_cons] at ih ⊢
    simp only [Ids.mapFromString, Ids.fromHex_toStr (h c (by simp)), ih]

theorem decU64_num (n : Nat) (h : n < 2 ^ 64) : decU64 (some (.num n)) = some n := by
  simp only [decU64, decNum]
  rw [if_pos (by omega)]
  simp

theorem decI64_num (n : Int) (h : -(2 ^ 63) ≤ n ∧ n < 2 ^ 63) : decI64 (some (.num n)) = some n := by
  simp only [decI64, decNum]
  rw [if_pos (by omega)]

/-- The JSON of an offer decodes to the same offer: same provider, CIDs, price, expiry, quality of service, signature, and
the Merkle root is rebuilt from the CIDs. -/
theorem C19_offer_round_trip (H : Hash) (o : CidOffer) (ho : Built H o) :
    ∃ j, marshal o = .ok j ∧ unmarshal H j = .ok o := by
  obtain ⟨pid, cids, price, expiry, qos, sig, root⟩ := o
  obtain ⟨⟨⟨p, hp, hpp⟩, hc, h1, h2, h3, h4⟩, hne, hroot⟩ := ho
  simp only at hp hc h1 h2 h3 h4 hne hroot
  subst hp
  refine ⟨_, rfl, ?_⟩
  simp only [unmarshal, decObj, Res.ofOption, Res.bind_ok]
  simp (disch := (simp only [List.map_cons, List.map_nil]; decide +kernel)) only [memberFor_field]
  simp only [Res.ofOption, Res.bind_ok, field, reduceCtorEq, ↓reduceIte, String.reduceEq, decStr,
    decList_strs, decU64_num _ h1, decU64_num _ h2, decI64_num _ ⟨h3, h4⟩, mapFromString_mapToString _ hc, hroot,
    Ids.fromHex_toStr hpp, Res.pure_ok]

/-- The same through the text: the bytes written for an offer are read back as that offer. -/
theorem C19_offer_text_round_trip (H : Hash) (o : CidOffer) (ho : Built H o) :
    ∃ j, marshal o = .ok j ∧ (utf8Text (utf8Bytes (render j))).bind parseJson = some j ∧ unmarshal H j = .ok o := by
  obtain ⟨j, h1, h2⟩ := C19_offer_round_trip H o ho
  exact ⟨j, h1, json_text_round_trip j, h2⟩

/-- The decoded offer has the same digest. -/
theorem C19_digest_kept (H H512 : Hash) (o o' : CidOffer) (ho : Built H o) (j : Json) (hj : marshal o = .ok j)
    (h' : unmarshal H j = .ok o') : digest H512 o' = digest H512 o := by
  obtain ⟨j', h1, h2⟩ := C19_offer_round_trip H o ho
  rw [hj] at h1
  cases h1
  rw [h'] at h2
  cases h2
  rfl

/-- The JSON of a sub-offer decodes to the same sub-offer. -/
theorem C19_sub_offer_round_trip (o : SubOffer) (ho : SubInRange o) :
    ∃ j, subMarshal o = .ok j ∧ subUnmarshal j = .ok o := by
  obtain ⟨pid, sub, root, proof, price, expiry, qos, sig⟩ := o
  obtain ⟨⟨p, hp, hpp⟩, ⟨c, hc, hcp⟩, h1, h2, h3, h4, h5, h6, h7⟩ := ho
  simp only at hp hc h1 h2 h3 h4 h5 h6 h7
  subst hp hc
  have hm : Merkle.unmarshal (Merkle.marshal proof) = .ok proof := by
    apply Merkle.C15_round_trip
    · intro l hl n hn
      have := h5 l hl n hn
      unfold inI64
      omega
    · exact h6
    · exact h7
  refine ⟨_, rfl, ?_⟩
  simp only [subUnmarshal, decObj, Res.ofOption, Res.bind_ok]
  simp (disch := (simp only [List.map_cons, List.map_nil]; decide +kernel)) only [memberFor_field]
  simp only [Res.ofOption, Res.bind_ok, field, reduceCtorEq, ↓reduceIte, String.reduceEq, decStr, decProof,
    hm, decU64_num _ h1, decU64_num _ h2, decI64_num _ ⟨h3, h4⟩, Ids.fromHex_toStr hpp, Ids.fromHex_toStr hcp, Res.pure_ok]

example : ∃ j, marshal exOffer = .ok j ∧ unmarshal toyHash j = .ok exOffer := C19_offer_round_trip toyHash _ exOffer_built
theorem exSub_inRange : SubInRange (subOffer toyHash exOffer (exId 2)) := by
  refine ⟨⟨exId 9, rfl, exId_proper 9⟩, ⟨exId 2, rfl, exId_proper 2⟩, by decide, by decide, by decide, by decide, ?_, ?_, ?_⟩
  · intro l hl n hn
    have : (subOffer toyHash exOffer (exId 2)).merkleProof.index = some [0] := by decide +kernel
    rw [this] at hl
    cases hl
    simp at hn
    subst hn
    decide
  · decide +kernel
  · decide +kernel

/-- What a decoded offer always satisfies, whatever JSON it came from: its numbers are in range, it has at least one CID, its
CIDs are 32 bytes, its root is that of its CIDs, and its provider is 32 bytes or missing. -/
theorem C19_decoded_offer_valid (H : Hash) (j : Json) (o : CidOffer) (h : unmarshal H j = .ok o) :
    o.cids ≠ [] ∧ (∀ c ∈ o.cids, Proper c) ∧ Merkle.rootHex H o.cids = some o.merkleRoot ∧ o.price < 2 ^ 64 ∧ o.qos < 2 ^ 64 ∧
    -(2 ^ 63) ≤ o.expiry ∧ o.expiry < 2 ^ 63 ∧ ∀ p, o.providerID = some p → Proper p := by
  have num : ∀ (lo hi : Int) (x : Option Json) (n : Int), lo ≤ 0 → 0 ≤ hi → decNum lo hi x = some n → lo ≤ n ∧ n ≤ hi := by
    intro lo hi x n h1 h2 h
    unfold decNum at h
    split at h
    · cases h; exact ⟨h1, h2⟩
    · cases h; exact ⟨h1, h2⟩
    · split at h
      · cases h; assumption
      · cases h
    · cases h
  have u64 : ∀ (x : Option Json) (n : Nat), decU64 x = some n → n < 2 ^ 64 := by
    intro x n h
    unfold decU64 at h
    cases hd : decNum 0 18446744073709551615 x with
    | none => rw [hd] at h; cases h
    | some i =>
      rw [hd] at h
      have := num _ _ _ _ (by omega) (by omega) hd
      simp at h
      omega
  have idp : ∀ (s : List Char) (p : Id), Ids.fromHex s = some p → Proper p := by
    intro s p h
    unfold Ids.fromHex at h
    split at h
    · cases h
    · exact Ids.fromBytes_proper h
  have ids : ∀ (ss : List (List Char)) (l : List Id), Ids.mapFromString ss = some l → ∀ c ∈ l, Proper c := by
    intro ss
    induction ss with
    | nil => intro l h; simp [Ids.mapFromString] at h; subst h; simp
    | cons s ss ih =>
      intro l h
      simp only [Ids.mapFromString] at h
      split at h
      · rename_i id ids h1 h2
        cases h
        intro c hc
        rcases List.mem_cons.1 hc with rfl | hc
        · exact idp _ _ h1
        · exact ih _ h2 c hc
      · cases h
  unfold unmarshal at h
  cases h0 : decObj j with
  | none => rw [h0] at h; simp [Res.ofOption] at h
  | some fs =>
    cases h1 : decStr (memberFor "provider_id" fs) with
    | none => rw [h0] at h; simp [Res.ofOption, h1] at h
    | some pid =>
    cases h2 : decList decStr (memberFor "cids" fs) with
    | none => rw [h0] at h; simp [Res.ofOption, h1, h2] at h
    | some cs =>
    cases h3 : decU64 (memberFor "price" fs) with
    | none => rw [h0] at h; simp [Res.ofOption, h1, h2, h3] at h
    | some price =>
    cases h4 : decI64 (memberFor "expiry" fs) with
    | none => rw [h0] at h; simp [Res.ofOption, h1, h2, h3, h4] at h
    | some expiry =>
    cases h5 : decU64 (memberFor "qos" fs) with
    | none => rw [h0] at h; simp [Res.ofOption, h1, h2, h3, h4, h5] at h
    | some qos =>
    cases h6 : decStr (memberFor "signature" fs) with
    | none => rw [h0] at h; simp [Res.ofOption, h1, h2, h3, h4, h5, h6] at h
    | some sig =>
    rw [h0] at h
    simp only [Res.ofOption, h1, h2, h3, h4, h5, h6, Res.bind_ok] at h
    cases h7 : Ids.mapFromString cs with
    | none => rw [h7] at h; simp at h
    | some l =>
      rw [h7] at h
      cases h8 : Merkle.rootHex H l with
      | none => simp [h8] at h
      | some r =>
        simp only [h8, Res.bind_ok, Res.pure_ok, Res.ok.injEq] at h
        subst h
        have hx := num _ _ _ _ (by omega) (by omega) h4
        refine ⟨?_, ids _ _ h7, h8, u64 _ _ h3, u64 _ _ h5, by simp only; omega, by simp only; omega, fun p hp => idp _ _ hp⟩
        intro he
        simp only at he
        rw [he] at h8
        simp [Merkle.rootHex, Merkle.rootBytes] at h8

/-! ## C84 expiry -/

/-- An offer has expired exactly when its expiry second lies in the past, for every expiry up to about the year 292 billion
(2^63 - 62135596801) and every present time in that range.  Missing: larger expiry values. -/
theorem C84_expired_iff_partial (expiry nowSec : Int) (nowNsec : Nat) (h1 : -(2 ^ 63) ≤ expiry) (h2 : expiry < 2 ^ 63 - 62135596800)
    (h3 : -(2 ^ 63) ≤ nowSec) (h4 : nowSec < 2 ^ 63 - 62135596800) (h5 : nowNsec < 1000000000) :
    hasExpired expiry nowSec nowNsec = true ↔ expiry * 1000000000 < nowSec * 1000000000 + nowNsec := by
  have w : ∀ n : Int, -(2 ^ 63) ≤ n → n < 2 ^ 63 - 62135596800 → wrapI64 (n + unixToInternal) = n + unixToInternal := by
    intro n h h'
    unfold wrapI64 unixToInternal
    omega
  simp only [hasExpired]
  rw [w _ h1 h2, w _ h3 h4]
  simp only [Bool.or_eq_true, Bool.and_eq_true, decide_eq_true_eq]
  generalize unixToInternal = u
  constructor
  · rintro (h | ⟨h, h'⟩) <;> omega
  · intro h
    by_cases hc : expiry < nowSec
    · left; omega
    · right
      constructor <;> omega

/-- Beyond that the addition wraps: every larger expiry counts as already expired at every time after 1970. -/
theorem C84_far_expiry_refuted (expiry nowSec : Int) (nowNsec : Nat) (h1 : 2 ^ 63 - 62135596800 ≤ expiry) (h2 : expiry < 2 ^ 63)
    (h3 : 0 ≤ nowSec) (h4 : nowSec < 2 ^ 63 - 62135596800) : hasExpired expiry nowSec nowNsec = true := by
  have e1 : wrapI64 (expiry + unixToInternal) < 0 := by unfold wrapI64 unixToInternal; omega
  have e2 : 0 ≤ wrapI64 (nowSec + unixToInternal) := by unfold wrapI64 unixToInternal; omega
  unfold hasExpired
  simp only [Bool.or_eq_true, decide_eq_true_eq]
  left
  omega

example : hasExpired 1700000000 1700000000 0 = false ∧ hasExpired 1700000000 1700000000 1 = true ∧
    hasExpired 9223372036854775807 1700000000 0 = true := by decide +kernel

/-! ## C85 unusable offers -/

/-- An offer that decodes without error and then crashes verification, digest and encoding: its provider is not hex. -/
theorem C85_decoded_offer_crashes_refuted : ∃ j o, unmarshal toyHash j = .ok o ∧
    (∀ P k, verify P k o = .panic) ∧ (∀ H512, digest H512 o = .panic) ∧ marshal o = .panic := by
  refine ⟨.obj [("provider_id", .str ['x']), ("cids", jsonStrs [Ids.toStr (exId 1)])],
    { providerID := none, cids := [exId 1], price := 0, expiry := 0, qos := 0, signature := [],
      merkleRoot := (Merkle.rootHex toyHash [exId 1]).getD [] }, by decide +kernel, ?_, ?_, ?_⟩
  · intro P k; rfl
  · intro H512; rfl
  · rfl

/-- The exact condition: these calls crash precisely on offers without a provider. -/
theorem C85_crash_iff_no_provider_partial (H512 : Hash) (P : Prims) (k : KeyPair) (v : KeyVersion) (o : CidOffer) :
    (verify P k o = .panic ↔ o.providerID = none) ∧ (sign P k v o = .panic ↔ o.providerID = none) ∧
    (digest H512 o = .panic ↔ o.providerID = none) ∧ (marshal o = .panic ↔ o.providerID = none) := by
  cases hp : o.providerID with
  | none => simp [verify, sign, digest, digestInput, marshal, toSign, hp]
  | some p =>
    refine ⟨?_, ?_, ?_, ?_⟩
    · rcases (C17_verify_iff P k o p hp).2 with h | h <;> simp [h]
    · simp only [sign, hp, toSign, Res.bind_ok]
      cases Crypto.signMessage P k v _ <;> simp [Res.ofOption]
    · simp [digest, digestInput, hp]
    · simp [marshal, hp]

/-- The same for sub-offers: verifying, and encoding, crash precisely when provider or content is missing or, for the Merkle
proof, when the content is missing or there are fewer indices than steps. -/
theorem C85_sub_offer_crash_iff_partial (H : Hash) (P : Prims) (k : KeyPair) (o : SubOffer) :
    (subVerify P k o = .panic ↔ o.providerID = none) ∧ (subMarshal o = .panic ↔ o.providerID = none ∨ o.subCID = none) ∧
    (verifyMerkleProof H o = .panic ↔
      o.subCID = none ∨ (o.merkleProof.index.getD []).length < (o.merkleProof.path.getD []).length) := by
  refine ⟨?_, ?_, ?_⟩
  · cases hp : o.providerID with
    | none => simp [subVerify, toSign, hp]
    | some p =>
      simp only [subVerify, hp, toSign, Res.bind_ok, checkSig]
      split <;> simp
  · unfold subMarshal
    cases o.providerID <;> cases o.subCID <;> simp
  · have := (Merkle.C68_answers_iff_partial H o.merkleProof o.subCID o.merkleRoot).2
    have e : verifyMerkleProof H o = .panic ↔ Merkle.verify H o.merkleProof o.subCID o.merkleRoot = .panic := by
      unfold verifyMerkleProof
      split <;> simp_all
    rw [e, this]
    cases o.subCID <;> simp <;> omega

/-- A sub-offer received in a message can crash the verifier. -/
theorem C85_decoded_sub_offer_crashes_refuted : ∃ j o, subUnmarshal j = .ok o ∧ (∀ P k, subVerify P k o = .panic) ∧
    ∀ H, verifyMerkleProof H o = .panic := by
  refine ⟨.obj [("provider_id", .str ['x']), ("sub_cid", .str ['y'])],
    ⟨none, none, [], ⟨none, none⟩, 0, 0, 0, []⟩, by decide +kernel, ?_, ?_⟩
  · intro P k; rfl
  · intro H; rfl

end FcRetrieval.Offer
