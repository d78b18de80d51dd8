import Verif.Lemmas.ClientJs
import Verif.Lemmas.AdminExamples
set_option linter.unusedSimpArgs false
/-!
# C151, C155, C156: the JavaScript client and its gateways
-/

namespace FcRetrieval.Js
open FcRetrieval.Crypto (Prims KeyPair KeyVersion)
open FcRetrieval.JsonGrammar
open FcRetrieval.Register (Record)
open FcRetrieval.Wire
open FcRetrieval.Codecs (clientEstablishmentRequest clientEstablishmentResponse)
open FcRetrieval.Message (Msg)

/-! ## C155: who is active has answered the challenge -/

theorem digit_eq : ∀ d, d < 10 → Char.ofNat (48 + d) ≠ '=' := by decide

theorem digits_eq : ∀ fuel n, '=' ∉ natDigitsAux fuel n
  | 0, n => by
    rw [natDigitsAux, List.mem_singleton]
    exact fun h => digit_eq (n % 10) (by omega) h.symm
  | fuel + 1, n => by
    unfold natDigitsAux
    split
    · rw [List.mem_singleton]
      exact fun h => digit_eq n (by omega) h.symm
    · rw [List.mem_append, List.mem_singleton]
      rintro (h | h)
      · exact digits_eq fuel _ h
      · exact digit_eq (n % 10) (by omega) h.symm

theorem int_eq (n : Int) : '=' ∉ intDigits n := by
  unfold intDigits natDigits
  split
  · rw [List.mem_cons]
    rintro (h | h)
    · revert h; decide
    · exact digits_eq _ _ h
  · exact digits_eq _ _

theorem toText_carries {s : List Char} (hc : ',' ∉ s) (he : '=' ∈ s) : ∀ j : Json, toText j = s → Carries s j
  | .null, h => by rw [← h, toText] at he; exact absurd he (by decide)
  | .bool true, h => by rw [← h, toText] at he; exact absurd he (by decide)
  | .bool false, h => by rw [← h, toText] at he; exact absurd he (by decide)
  | .num n, h => by rw [← h, toText] at he; exact absurd he (int_eq n)
  | .str t, h => by rw [toText] at h; subst h; exact .text
  | .obj _, h => by rw [← h, toText] at he; exact absurd he (by decide)
  | .arr [], h => by rw [← h, toText] at he; cases he
  | .arr [x], h => by
    rw [toText, joinText, List.append_nil] at h
    cases hx : isNull x with
    | true => rw [hx, if_pos rfl] at h; subst h; cases he
    | false => exact .wrapped _ (toText_carries hc he x (by rw [hx] at h; exact h))
  | .arr (x :: y :: l), h => by
    rw [toText, joinText] at h
    exact absurd (by rw [← h]; simp) hc

theorem b64_comma : ∀ b : Bytes, ',' ∉ b64Encode b := by
  intro b
  have aux : ∀ n, n < 64 → b64Char n ≠ ',' := by decide
  induction b using b64Encode.induct with
  | case1 => simp [b64Encode]
  | case2 x =>
    have hx := u8_lt x
    simp only [b64Encode, List.mem_cons, List.not_mem_nil, or_false]
    simp only [not_or]
    exact ⟨(aux _ (by omega)).symm, (aux _ (by omega)).symm, by decide, by decide⟩
  | case3 x y =>
    have hx := u8_lt x
    have hy := u8_lt y
    simp only [b64Encode, List.mem_cons, List.not_mem_nil, or_false]
    simp only [not_or]
    exact ⟨(aux _ (by omega)).symm, (aux _ (by omega)).symm, (aux _ (by omega)).symm, by decide⟩
  | case4 x y z b ih =>
    have hx := u8_lt x
    have hy := u8_lt y
    have hz := u8_lt z
    simp only [b64Encode, List.mem_cons]
    simp only [not_or]
    exact ⟨(aux _ (by omega)).symm, (aux _ (by omega)).symm, (aux _ (by omega)).symm, (aux _ (by omega)).symm, ih⟩

theorem b64_pad {b : Bytes} (h : b.length % 3 ≠ 0) : '=' ∈ b64Encode b := by
  revert h
  induction b using b64Encode.induct with
  | case1 => simp
  | case2 x => simp [b64Encode]
  | case3 x y => simp [b64Encode]
  | case4 x y z b ih =>
    intro h
    simp only [b64Encode, List.mem_cons]
    simp only [List.length_cons] at h
    exact .inr (.inr (.inr (.inr (ih (by omega)))))

theorem loosely_carries {j : Option Json} {b : Bytes} (hb : b.length = 32) (h : looselyEqual j (b64Encode b) = true) : ∃ c, j = some c ∧ Carries (b64Encode b) c := by
  have h1 := b64_comma b
  have h2 := b64_pad (b := b) (by omega)
  unfold looselyEqual at h
  split at h
  · rw [beq_iff_eq] at h; subst h; exact ⟨_, rfl, .text⟩
  · rw [beq_iff_eq] at h; exact ⟨_, rfl, toText_carries h1 h2 _ h⟩
  · rw [beq_iff_eq] at h; exact ⟨_, rfl, toText_carries h1 h2 _ h⟩
  · cases h

theorem utf8Bytes_of_text {b : Bytes} {t : List Char} (h : utf8Text b = some t) : utf8Bytes t = b := by
  unfold utf8Text at h
  rw [Option.map_eq_some_iff] at h
  obtain ⟨a, h1, rfl⟩ := h
  have hs : b.toByteArray.utf8Decode?.isSome := by rw [h1]; rfl
  have h2 := ByteArray.utf8Encode_get_utf8Decode? (b := b.toByteArray) (h := hs)
  have h3 : b.toByteArray.utf8Decode?.get hs = a := by simp [h1]
  rw [h3] at h2
  unfold utf8Bytes
  unfold List.utf8Encode at h2
  have h4 := congrArg (fun x => x.data.toList) h2
  simpa only [List.toList_data_toByteArray] using h4

theorem prop_obj {name : String} {j v : Json} (h : prop name j = some (some v)) : ∃ gs, j = .obj gs ∧ field name gs = some v := by
  unfold prop at h
  split at h
  · cases h
  · rename_i gs
    exact ⟨gs, rfl, Option.some.inj h⟩
  · cases h

theorem decodeResponse_some {m : FcrMsg} {g c : Json} (h : decodeResponse m = some (some g, some c)) :
    ∃ body t gs, m.type = some (.num 101) ∧ m.body = some (.str body) ∧ fromB64 body = utf8Bytes t ∧ Whole true (.obj gs) t ∧
      field "gateway_id" gs = some g ∧ field "challenge" gs = some c := by
  unfold decodeResponse at h
  split at h
  · rename_i s h1 h2
    split at h
    · cases h
    · rename_i j hj
      obtain ⟨t, ht, hp⟩ := Option.bind_eq_some_iff.1 hj
      split at h
      · rename_i g' c' hg hc
        simp only [Option.some.injEq, Prod.mk.injEq] at h
        obtain ⟨rfl, rfl⟩ := h
        obtain ⟨gs, rfl, e1⟩ := prop_obj hg
        obtain ⟨gs', e0, e2⟩ := prop_obj hc
        cases e0
        exact ⟨s, t, gs, h1, h2, (utf8Bytes_of_text ht).symm, C153_refused hp, e1, e2⟩
      · cases h
  · cases h

theorem ofValue_members {j : Json} {m : FcrMsg} (h : ofValue j = some m) : ∃ fs, m = ofMembers fs := by
  unfold ofValue at h
  split at h
  · cases h
  · exact ⟨_, (Option.some.inj h).symm⟩
  · exact ⟨_, (Option.some.inj h).symm⟩

/-- The members of the text that is verified. -/
theorem verified_members (m : FcrMsg) {t b : Json} (ht : m.type = some t) (hb : m.body = some b) :
    ∃ fs, Whole false (.obj fs) (toVerify m) ∧ field "message_type" fs = some t ∧ field "message_body" fs = some b := by
  refine ⟨_, stringify_whole _, ?_, ?_⟩
  · simp [ht, hb, member, field]
  · simp [ht, hb, member, field]

/-- **C155, one establishment**: if it succeeds, a text that names the gateway and carries the challenge of this very attempt has been signed under the key of the
registration. -/
theorem C155_answered (P : Prims) (net : Net) (g : Record) (challenge : Bytes) (client : List Char) (ttl : Int)
    (h : requestEstablishment P net g challenge client ttl = true) : challenge.length = 32 ∧ Signed P g challenge := by
  unfold requestEstablishment at h
  split at h
  · cases h
  rename_i hlen
  have hl : challenge.length = 32 := Decidable.of_not_not hlen
  refine ⟨hl, ?_⟩
  split at h
  · cases h
  rename_i r hr
  split at h
  · cases h
  rename_i pk hpk
  split at h
  · rename_i hv
    split at h
    · rename_i id c hd
      split at h
      · cases h
      · rename_i hid
        obtain ⟨c', rfl, hc⟩ := loosely_carries hl h
        obtain ⟨body, t, gs, h1, h2, h3, h4, h5, h6⟩ := decodeResponse_some hd
        obtain ⟨fs, f1, f2, f3⟩ := verified_members r h1 h2
        unfold verify at hv
        split at hv
        · unfold verifyMessage at hv
          split at hv
          · cases hv
          · rename_i sig _
            have hs := Option.some.inj hv
            unfold secpVerify at hs
            rw [Bool.and_eq_true] at hs
            exact ⟨pk, toVerify r, sig, hpk, hs.2, fs, body, t, gs, id, c', f1, f2, f3, h3, h4, h5, h6, (Decidable.of_not_not hid).symm, hc⟩
        · cases hv
    · cases h
  · cases h

/-- What holds of every entry. -/
def Sound (P : Prims) (h : List Call) (c : Client) : Prop :=
  (∀ id g, mget c.toUse id = some g → Registered h id g ∧ validInfo g = true) ∧
  (∀ id g, mget c.active id = some g → Registered h id g ∧ ∃ challenge, Attempted h id challenge ∧ challenge.length = 32 ∧ Signed P g challenge)

theorem Registered.mono {h h' : List Call} (hh : ∀ x ∈ h, x ∈ h') {id : List Char} {g : Record} (a : Registered h id g) : Registered h' id g := by
  obtain ⟨l, h1, h2⟩ := a
  exact ⟨l, hh _ h1, h2⟩

theorem Attempted.mono {h h' : List Call} (hh : ∀ x ∈ h, x ∈ h') {id : List Char} {b : Bytes} (a : Attempted h id b) : Attempted h' id b := by
  obtain ⟨l, x, h1, h2⟩ := a
  exact ⟨l, x, hh _ h1, h2⟩

theorem addToUse_sound {P : Prims} {h : List Call} {l0 : List (List Char × Option Record)} (hl : Call.toUse l0 ∈ h) :
    ∀ (l : List (List Char × Option Record)) (c : Client), (∀ x ∈ l, x ∈ l0) → Sound P h c → Sound P h (addToUse c l).1
  | [], c, _, hc => hc
  | (id, r) :: l, c, hs, hc => by
    have ih := fun c hc => addToUse_sound (P := P) hl l c (fun x hx => hs x (by simp [hx])) hc
    unfold addToUse
    split
    · exact ih c hc
    split
    · exact ih c hc
    · rename_i g
      split
      · rename_i hv
        apply ih
        refine ⟨fun id' g' hg => ?_, hc.2⟩
        rw [mget_mset] at hg
        split at hg
        · rename_i he
          cases hg
          subst he
          exact ⟨⟨l0, hl, hs _ (by simp)⟩, hv⟩
        · exact hc.1 id' g' hg
      · exact ih c hc

theorem addActive_sound {P : Prims} {S : Settings} {h : List Call} {l0 : List (List Char × Attempt)} (hl : Call.active l0 ∈ h) :
    ∀ (l : List (List Char × Attempt)) (c : Client), (∀ x ∈ l, x ∈ l0) → Sound P h c → Sound P h (addActive P S c l).1
  | [], c, _, hc => hc
  | (id, a) :: l, c, hs, hc => by
    have ih := fun c hc => addActive_sound (P := P) (S := S) hl l c (fun x hx => hs x (by simp [hx])) hc
    unfold addActive
    split
    · exact ih c hc
    split
    · exact ih c hc
    · rename_i g hg
      split
      · rename_i hv
        apply ih
        refine ⟨hc.1, fun id' g' hg' => ?_⟩
        dsimp only at hg'
        rw [mget_mset] at hg'
        split at hg'
        · rename_i he
          cases hg'
          subst he
          exact ⟨(hc.1 _ _ hg).1, a.challenge, ⟨l0, a, hl, hs _ (by simp), rfl⟩, C155_answered P a.net g a.challenge _ _ hv⟩
        · exact hc.2 id' g' hg'
      · exact ih c hc

theorem run_sound (P : Prims) (S : Settings) : ∀ (h h0 : List Call) (c : Client), Sound P h0 c → Sound P (h0 ++ h) (run P S c h)
  | [], h0, c, hc => by rw [List.append_nil]; exact hc
  | x :: h, h0, c, hc => by
    have hm : ∀ y ∈ h0, y ∈ h0 ++ [x] := fun y hy => by simp [hy]
    have hc' : Sound P (h0 ++ [x]) c :=
      ⟨fun id g hg => ⟨(hc.1 id g hg).1.mono hm, (hc.1 id g hg).2⟩,
       fun id g hg => ⟨(hc.2 id g hg).1.mono hm, by
        obtain ⟨b, h1, h2⟩ := (hc.2 id g hg).2
        exact ⟨b, h1.mono hm, h2⟩⟩⟩
    have : Sound P (h0 ++ [x]) (step P S c x) := by
      cases x with
      | toUse l => exact addToUse_sound (l0 := l) (by simp) l c (fun _ h => h) hc'
      | active l => exact addActive_sound (l0 := l) (by simp) l c (fun _ h => h) hc'
    have := run_sound P S h (h0 ++ [x]) _ this
    rw [List.append_assoc] at this
    exact this

/-- **C155**: whatever is called and whatever register and network answer, a gateway that is active was returned by the register for its identifier, and a text that
names it and carries the random bytes of an attempt with it has been signed under the key of its registration. -/
theorem C155_active (P : Prims) (S : Settings) (h : List Call) (id : List Char) (g : Record) (hg : mget (run P S newClient h).active id = some g) :
    Registered h id g ∧ ∃ challenge, Attempted h id challenge ∧ challenge.length = 32 ∧ Signed P g challenge := by
  have := run_sound P S h [] newClient ⟨by simp [newClient, mget], by simp [newClient, mget]⟩
  exact this.2 id g hg

/-- **C155, of use**: whatever is called, a gateway to use was returned by the register for its identifier and its key is well-formed. -/
theorem C155_to_use (P : Prims) (S : Settings) (h : List Call) (id : List Char) (g : Record) (hg : mget (run P S newClient h).toUse id = some g) :
    Registered h id g ∧ validInfo g = true := by
  have := run_sound P S h [] newClient ⟨by simp [newClient, mget], by simp [newClient, mget]⟩
  exact this.1 id g hg

/-! ## C151: an honest gateway is accepted -/

theorem hex_pairs : ∀ p ∈ hexDigits, ∀ q ∈ hexDigits, isWord p.1 = true ∧ parseHexByte [p.1, q.1] = UInt8.ofNat (16 * p.2 + q.2) := by decide +kernel

/-- Hexadecimal text that Go reads is read alike. -/
theorem hexArray_of : ∀ {s : List Char} {b : Bytes}, hexDecode s = some b → hexArray s = b
  | [], b, h => by cases h; rfl
  | [_], b, h => by cases h
  | c :: d :: s, b, h => by
    unfold hexDecode at h
    split at h
    · rename_i x y bs h1 h2 h3
      cases h
      have ih := hexArray_of h3
      have hc := hexVal_digits h1
      have hd := hexVal_digits h2
      obtain ⟨w1, e⟩ := hex_pairs _ hc _ hd
      obtain ⟨w2, -⟩ := hex_pairs _ hd _ hd
      dsimp only at w1 w2 e
      unfold hexArray at ih ⊢
      rw [pieces, w1, w2]
      simp only [Bool.and_self, if_true, List.map_cons, ih, e]
    · cases h

/-- **C151, keys**: a key that Go reads is read alike. -/
theorem C151_key {s : List Char} {k : KeyPair} (h : Crypto.decodePublicKey s = .ok k) : publicKey s = k.pubKey := by
  unfold Crypto.decodePublicKey at h
  split at h
  · cases h
  · cases h
  · rename_i a b hb
    split at h
    · rename_i ha
      unfold Crypto.decodeSecPublic at h
      split at h
      · cases h
      · rename_i hl
        cases h
        unfold publicKey
        rw [hexArray_of hb, ha]
        exact if_pos (Decidable.of_not_not hl)
    · cases h

theorem render_members (m : Msg) (sig : List Char) : toVerify (ofMembers (messageMembers { m with signature := sig })) = render (Message.msgJson m []) := by
  have hb : stringify (jsonBytes m.body) = render (jsonBytes m.body) := by
    cases m.body with
    | none => rfl
    | some b => exact plain_alike (b64_plain b)
  have hf : toVerify (ofMembers (messageMembers { m with signature := sig })) =
      stringify (.obj [("message_type", .num m.type), ("protocol_version", .num m.version), ("protocol_supported", Message.intsJson m.supported),
        ("message_body", jsonBytes m.body), ("message_signature", .str [])]) := by
    simp [toVerify, ofMembers, messageMembers, field, member]
  rw [hf]
  unfold Message.msgJson
  simp only [stringify, render, stringifyField, renderField, stringifyFields, renderFields, ints_alike, hb]
  have h1 : escStr "message_type".toList = FcRetrieval.escStr "message_type".toList := by decide
  have h2 : escStr "protocol_version".toList = FcRetrieval.escStr "protocol_version".toList := by decide
  have h3 : escStr "protocol_supported".toList = FcRetrieval.escStr "protocol_supported".toList := by decide
  have h4 : escStr "message_body".toList = FcRetrieval.escStr "message_body".toList := by decide
  have h5 : escStr "message_signature".toList = FcRetrieval.escStr "message_signature".toList := by decide
  rw [h1, h2, h3, h4, h5]
  rfl

/-- **C151, signatures**: a message that Go verifies, with a signature of the length Go's signatures have, verifies. -/
theorem C151_verifies (P : Prims) (k : KeyPair) (pk : Bytes) (hk : k.pubKey = some pk) (m : Msg) (b : Bytes) (hb : hexDecode m.signature = some b) (hl : b.length = 69)
    (h : (Message.verify P k m).2 = true) : verify P pk (ofMembers (messageMembers m)) = some true := by
  have ht : toVerify (ofMembers (messageMembers m)) = render (Message.msgJson m []) := render_members m m.signature
  have hs : (ofMembers (messageMembers m)).signature = .str m.signature := by simp [ofMembers, messageMembers, field]
  have hv : Crypto.verifyMessage P k m.signature (Message.toSign m) = some true := by
    unfold Message.verify at h
    split at h
    · assumption
    · cases h
  unfold Crypto.verifyMessage at hv
  rw [hb] at hv
  dsimp only at hv
  rw [if_neg (by omega)] at hv
  unfold Crypto.keyVerify at hv
  split at hv
  · cases hv
  have hv := Option.some.inj hv
  unfold Crypto.secpVerify Crypto.publicPart at hv
  rw [hk, if_pos (by simp [hl])] at hv
  unfold verify
  rw [hs]
  dsimp only
  unfold verifyMessage rawSignature
  rw [hexArray_of hb, if_neg (by omega)]
  dsimp only
  have e : (b.take (b.length - 1)).drop 4 = (b.drop 4).take 64 := by
    rw [List.drop_take, hl]
  rw [e]
  unfold secpVerify
  rw [ht]
  have : ((b.drop 4).take 64).length = 64 := by simp [hl]
  rw [this]
  unfold Message.toSign Message.jsonText at hv
  simpa using hv

theorem request_read (client challenge : Bytes) (hcl : client.length = 32) (ttl : Int) (ht : inI64 ttl) :
    ∃ m, Message.fromBytes (utf8Bytes (toSend (encodeRequest (Ids.toStr client) (b64Encode challenge) ttl))) = .ok m ∧ m.type = 100 ∧
      decode clientEstablishmentRequest m = .ok (some client, b64Encode challenge, ttl) := by
  obtain ⟨m0, h1, h2, h3, h4, h5⟩ := Codecs.C30_clientEstablishmentRequest Message.defaultProtocol Codecs.defaultProtocolOk (some client) (b64Encode challenge) ttl ⟨client, rfl, hcl⟩ ht
  have hm0 : m0 = Message.create Message.defaultProtocol 100 (some (Message.jsonText (.obj
      [("client_id", .str (Ids.toStr client)), ("challenge", .str (b64Encode challenge)), ("ttl", .num ttl)]))) := by
    have : encode clientEstablishmentRequest Message.defaultProtocol (some client, b64Encode challenge, ttl) = .ok (Message.create Message.defaultProtocol 100 (some (Message.jsonText (.obj
      [("client_id", .str (Ids.toStr client)), ("challenge", .str (b64Encode challenge)), ("ttl", .num ttl)])))) := rfl
    rw [this] at h1
    exact (Res.ok.inj h1).symm
  have hbody : utf8Bytes (stringify (.obj [("client_id", .str (Ids.toStr client)), ("challenge", .str (b64Encode challenge)), ("ttl", .num ttl)])) =
      Message.jsonText (.obj [("client_id", .str (Ids.toStr client)), ("challenge", .str (b64Encode challenge)), ("ttl", .num ttl)]) := by
    unfold Message.jsonText
    congr 1
    have a1 := plain_alike (id_plain client)
    have a2 := plain_alike (b64_plain challenge)
    have h1 : escStr "client_id".toList = FcRetrieval.escStr "client_id".toList := by decide
    have h2 : escStr "challenge".toList = FcRetrieval.escStr "challenge".toList := by decide
    have h3 : escStr "ttl".toList = FcRetrieval.escStr "ttl".toList := by decide
    rw [stringify, render, stringifyField, renderField, stringifyFields, renderFields, stringifyField, renderField, stringifyFields, renderFields, stringifyField, renderField,
      stringifyFields, renderFields, a1, a2, h1, h2, h3, stringify, render]
  refine ⟨{ m0 with signature := [] }, ?_, ?_, (h5 []).2⟩
  · have hw := stringify_whole (.obj [("message_type", .num 100), ("message_body", jsonBytes m0.body),
      ("protocol_version", .num 1), ("protocol_supported", .arr [.num 1, .num 1]), ("message_signature", .str [])])
    have he : toSend (encodeRequest (Ids.toStr client) (b64Encode challenge) ttl) = stringify (.obj [("message_type", .num 100), ("message_body", jsonBytes m0.body),
      ("protocol_version", .num 1), ("protocol_supported", .arr [.num 1, .num 1]), ("message_signature", .str [])]) := by
      rw [hm0]
      unfold encodeRequest
      rw [hbody]
      simp [toSend, ofMembers, field, member, Message.create, jsonBytes]
    rw [he]
    refine C153_message ?_ ?_ hw
    · subst hm0
      refine ⟨(⟨by decide, by decide⟩ : inI32 100), (⟨by decide, by decide⟩ : inI32 1), ?_⟩
      intro l hl
      cases hl
      intro n hn
      simp only [List.mem_cons, List.not_mem_nil, or_false, or_self] at hn
      subst hn
      exact ⟨by decide, by decide⟩
    · subst hm0
      intro x hx
      refine carries_mem ?_ (by simp only [List.map_cons, List.map_nil]; decide +kernel)
      simp only [messageMembers, List.mem_cons, List.not_mem_nil, or_false] at hx
      rcases hx with rfl | rfl | rfl | rfl | rfl <;> simp [Message.create, Message.defaultProtocol, Message.intsJson]
  · exact h2

theorem answer_decoded (m : Msg) (sig : List Char) (id challenge : Bytes) (ht : m.type = 101)
    (hb : m.body = some (Message.jsonText (.obj [("gateway_id", .str (Ids.toStr id)), ("challenge", .str (b64Encode challenge))]))) :
    decodeResponse (ofMembers (messageMembers { m with signature := sig })) = some (some (.str (Ids.toStr id)), some (.str (b64Encode challenge))) := by
  have h1 : (ofMembers (messageMembers { m with signature := sig })).type = some (.num 101) := by simp [ofMembers, messageMembers, field, ht]
  have h2 : (ofMembers (messageMembers { m with signature := sig })).body = some (.str (b64Encode (Message.jsonText (.obj [("gateway_id", .str (Ids.toStr id)), ("challenge", .str (b64Encode challenge))])))) := by
    simp [ofMembers, messageMembers, field, hb, jsonBytes]
  unfold decodeResponse
  rw [h1, h2]
  simp only [fromB64_encode]
  unfold Message.jsonText
  rw [json_text_round_trip]
  simp [prop, field]

/-- **C151**: a gateway that has been set up and owns the key of its registration is accepted: the client's request reaches it, its answer verifies, names it and
carries the challenge, however the JSON of the answer is laid out. -/
theorem C151_establishes {Sig : Type} (sp op tp : Int) (hist : List (GatewayAdmin.Env Sig × GatewayLife.Request × Msg)) (id : Ids.Id) (kp : KeyPair) (v : KeyVersion)
    (hk : GatewayLife.lastKey hist = some (some id, kp, v)) (E : GatewayAdmin.Env Sig) (hc : Crypto.Correct E.P)
    (g : Record) (ho : Admin.Owns E.P g kp v) (hid : lower g.nodeID = lower (Ids.toStr id))
    (client challenge : Bytes) (hcl : client.length = 32) (hch : challenge.length = 32) (ttl : Int) (ht : inI64 ttl) (hnow : E.now ≤ ttl)
    (net : Net) (hnet : Behind E (GatewayLife.live (GatewayAdmin.newNode sp op tp) hist) net ("http://".toList ++ g.netClient ++ "/v1".toList)) :
    requestEstablishment E.P net g challenge (Ids.toStr client) ttl = true := by
  obtain ⟨hpriv, hsigns, k, hdec, halg, hpub⟩ := ho
  obtain ⟨m, hm, hty, hreq⟩ := request_read client challenge hcl ttl ht
  obtain ⟨c, h1, h2, h3, -, -, -, h7, -⟩ := GatewayLife.C144_ready sp op tp hist id kp v hk .establishment (by simp [GatewayLife.pays]) E m
  have hk2 := C151_key hdec
  obtain ⟨pk, hpk⟩ : ∃ pk, k.pubKey = some pk := by
    unfold Crypto.decodePublicKey at hdec
    split at hdec
    · cases hdec
    · cases hdec
    · split at hdec
      · unfold Crypto.decodeSecPublic at hdec
        split at hdec
        · cases hdec
        · cases hdec; exact ⟨_, rfl⟩
      · cases hdec
  -- the answer
  let m1 : Msg := Message.create E.pr 101 (some (Message.jsonText (.obj [("gateway_id", .str (Ids.toStr id)), ("challenge", .str (b64Encode challenge))])))
  have henc : encode clientEstablishmentResponse E.pr (some c.id, b64Encode challenge) = .ok m1 := by rw [h1]; rfl
  obtain ⟨sig, hsig⟩ := Option.isSome_iff_exists.1 (hsigns (Message.toSign m1))
  have hstep : (GatewayLife.step E (GatewayLife.live (GatewayAdmin.newNode sp op tp) hist) (.other .establishment) m).2 = [.other (.message { m1 with signature := sig })] := by
    rw [h7]
    have : (Gateway.serve E.toEnv c .establishment m).2 = [.message { m1 with signature := sig }] := by
      simp only [Gateway.serve, Gateway.establishment, hreq]
      rw [if_neg (by omega)]
      unfold Gateway.respond
      have henc' : encode clientEstablishmentResponse E.toEnv.pr (some c.id, b64Encode challenge) = .ok m1 := henc
      simp only [henc', Message.sign, h2, h3]
      have hsig' : Crypto.signMessage E.toEnv.P kp v (Message.toSign m1) = some sig := hsig
      rw [hsig']
    rw [this]
    rfl
  obtain ⟨s, hs, hw⟩ := hnet _ m _ hm hty hstep
  -- its signature
  have hraw : ∃ raw, sig = hexEncode (Crypto.encodeKeyVersionAsBytes v ++ raw) ∧ Crypto.keySign E.P kp (Message.toSign m1) = some raw := by
    unfold Crypto.signMessage at hsig
    split at hsig
    · cases hsig
    · rename_i raw hr
      exact ⟨raw, (Option.some.inj hsig).symm, hr⟩
  obtain ⟨raw, hsraw, hks⟩ := hraw
  have hks' : E.P.sign (E.P.hash (Message.toSign m1)) (kp.pKey.getD []) = some raw := by
    unfold Crypto.keySign at hks
    rwa [if_neg (by simp [hpriv.1])] at hks
  obtain ⟨hlen, hver⟩ := hc _ _ _ hks'
  have hdecs : hexDecode sig = some (Crypto.encodeKeyVersionAsBytes v ++ raw) := by rw [hsraw, hexDecode_encode]
  have h69 : (Crypto.encodeKeyVersionAsBytes v ++ raw).length = 69 := by simp [Crypto.encodeKeyVersionAsBytes, be32, hlen]
  have hgo : (Message.verify E.P k { m1 with signature := sig }).2 = true := by
    unfold Message.verify
    have : Crypto.verifyMessage E.P k sig (Message.toSign { m1 with signature := sig }) = some true := by
      unfold Crypto.verifyMessage
      rw [hdecs]
      dsimp only
      rw [if_neg (by omega)]
      have e : (Crypto.encodeKeyVersionAsBytes v ++ raw).drop 4 = raw := by simp [Crypto.encodeKeyVersionAsBytes, be32]
      rw [e]
      unfold Crypto.keyVerify
      rw [if_neg (by simp [halg])]
      unfold Crypto.secpVerify
      rw [if_pos hlen, hpub]
      unfold Crypto.publicPart
      rw [hpriv.2.1]
      exact congrArg some hver
    dsimp only
    rw [this]
  have hjs := C151_verifies E.P k pk hpk { m1 with signature := sig } _ hdecs h69 hgo
  have hans := answer_decoded m1 sig id challenge rfl rfl
  have hsend : sendMessage net ("http://".toList ++ g.netClient ++ "/v1".toList) (encodeRequest (Ids.toStr client) (b64Encode challenge) ttl) =
      some (ofMembers (messageMembers { m1 with signature := sig })) := by
    unfold sendMessage post
    rw [hs]
    dsimp only
    rw [if_neg (by simp), C153_read hw]
    rfl
  unfold requestEstablishment
  rw [if_neg (by simp [hch]), hsend]
  dsimp only
  rw [hk2, hpk]
  dsimp only
  rw [hjs]
  dsimp only
  rw [hans]
  dsimp only
  rw [if_neg (by simp [hid])]
  simp [looselyEqual]

/-- **C151, in the client**: asked to use the gateway and then to make it active, the client does so. -/
theorem C151_active {Sig : Type} (sp op tp : Int) (hist : List (GatewayAdmin.Env Sig × GatewayLife.Request × Msg)) (id : Ids.Id) (kp : KeyPair) (v : KeyVersion)
    (hk : GatewayLife.lastKey hist = some (some id, kp, v)) (E : GatewayAdmin.Env Sig) (hc : Crypto.Correct E.P)
    (g : Record) (ho : Admin.Owns E.P g kp v) (hid : lower g.nodeID = lower (Ids.toStr id))
    (S : Settings) (client : Bytes) (hcl : client.length = 32) (hS : S.clientId = Ids.toStr client) (a : Attempt) (hch : a.challenge.length = 32)
    (ht : inI64 (a.nowMs + S.establishmentTTL)) (hnow : E.now ≤ a.nowMs + S.establishmentTTL)
    (hnet : Behind E (GatewayLife.live (GatewayAdmin.newNode sp op tp) hist) a.net ("http://".toList ++ g.netClient ++ "/v1".toList)) (name : List Char) :
    run E.P S newClient [.toUse [(name, some g)], .active [(name, a)]] = ⟨[(name, g)], [(name, g)]⟩ := by
  have hv : validInfo g = true := by
    obtain ⟨-, -, k, hdec, -⟩ := ho
    unfold validInfo
    rw [C151_key hdec]
    unfold Crypto.decodePublicKey at hdec
    split at hdec
    · cases hdec
    · cases hdec
    · split at hdec
      · unfold Crypto.decodeSecPublic at hdec
        split at hdec
        · cases hdec
        · cases hdec; rfl
      · cases hdec
  have he := C151_establishes sp op tp hist id kp v hk E hc g ho hid client a.challenge hcl hch _ ht hnow a.net hnet
  rw [← hS] at he
  simp [run, step, addToUse, addActive, newClient, mget, mset, hv, he]

/-! ## C156: how long a request is good for -/

/-- **C156 is false**: the time to live is added to a clock in milliseconds, and gateways compare the sum with a clock in seconds.  Whatever the time to live, a gateway
that reads the request up to 999 times the age of the epoch later (about 57 thousand years) still answers, and the client still accepts the answer. -/
theorem C156_refuted {Sig : Type} (sp op tp : Int) (hist : List (GatewayAdmin.Env Sig × GatewayLife.Request × Msg)) (id : Ids.Id) (kp : KeyPair) (v : KeyVersion)
    (hk : GatewayLife.lastKey hist = some (some id, kp, v)) (E : GatewayAdmin.Env Sig) (hc : Crypto.Correct E.P)
    (g : Record) (ho : Admin.Owns E.P g kp v) (hid : lower g.nodeID = lower (Ids.toStr id))
    (client challenge : Bytes) (hcl : client.length = 32) (hch : challenge.length = 32) (nowMs timeToLive delay : Int) (ht : inI64 (nowMs + timeToLive))
    (h1 : 0 ≤ timeToLive) (hd : delay ≤ 999 * (nowMs / 1000)) (hclock : E.now = nowMs / 1000 + delay)
    (net : Net) (hnet : Behind E (GatewayLife.live (GatewayAdmin.newNode sp op tp) hist) net ("http://".toList ++ g.netClient ++ "/v1".toList)) :
    requestEstablishment E.P net g challenge (Ids.toStr client) (nowMs + timeToLive) = true :=
  C151_establishes sp op tp hist id kp v hk E hc g ho hid client challenge hcl hch _ ht (by omega) net hnet

/-- **C156, what is left**: read when the gateway's clock in seconds is past the sum, the request is not answered, and a client that gets the empty answer of such a
gateway does not go on. -/
theorem C156_partial {Sig : Type} (E : GatewayAdmin.Env Sig) (n : GatewayAdmin.Node Sig)
    (client challenge : Bytes) (hcl : client.length = 32) (nowMs timeToLive : Int) (ht : inI64 (nowMs + timeToLive)) (hlate : nowMs + timeToLive < E.now) :
    (∃ m, Message.fromBytes (utf8Bytes (toSend (encodeRequest (Ids.toStr client) (b64Encode challenge) (nowMs + timeToLive)))) = .ok m ∧
      ∀ x, ¬ GatewayLife.Sends x (GatewayLife.step E n (.other .establishment) m).2) ∧
    ∀ (g : Record) (net : Net), (∀ t, net ("http://".toList ++ g.netClient ++ "/v1".toList) t = some (200, [])) →
      requestEstablishment E.P net g challenge (Ids.toStr client) (nowMs + timeToLive) = false := by
  obtain ⟨m, hm, hty, hreq⟩ := request_read client challenge hcl _ ht
  refine ⟨⟨m, hm, ?_⟩, ?_⟩
  · intro x
    have hz : (GatewayLife.serveOther E n .establishment m).2 = [.unready] ∨ (GatewayLife.serveOther E n .establishment m).2 = [] := by
      unfold GatewayLife.serveOther
      split
      · right
        simp only [GatewayLife.pays, Bool.false_and, Bool.false_eq_true, if_false, Gateway.serve, Gateway.establishment, hreq]
        rw [if_pos (by exact hlate)]
        rfl
      · left; rfl
    unfold GatewayLife.step
    dsimp only
    rcases hz with h | h <;> rw [h] <;> simp [GatewayLife.Sends]
  · intro g net hnet
    unfold requestEstablishment
    split
    · rfl
    have : sendMessage net ("http://".toList ++ g.netClient ++ "/v1".toList) (encodeRequest (Ids.toStr client) (b64Encode challenge) (nowMs + timeToLive)) = some (ofMembers []) := by
      unfold sendMessage post
      rw [hnet]
      rfl
    rw [this]
    dsimp only
    split
    · rfl
    · have : ∀ pk, verify E.P pk (ofMembers []) = none := fun _ => rfl
      rw [this]

/-! ## Examples -/

/-- A network with a gateway behind every address. -/
def exNet {Sig : Type} (E : GatewayAdmin.Env Sig) (n : GatewayAdmin.Node Sig) : Net := fun _ t =>
  match Message.fromBytes (utf8Bytes t) with
  | .ok m =>
    match (GatewayLife.step E n (.other .establishment) m).2 with
    | [.other (.message x)] => some (200, render (.obj (messageMembers x)))
    | _ => some (200, [])
  | _ => none

theorem exNet_behind {Sig : Type} (E : GatewayAdmin.Env Sig) (n : GatewayAdmin.Node Sig) (url : List Char) : Behind E n (exNet E n) url := by
  intro t m x h1 _ h3
  refine ⟨render (.obj (messageMembers x)), ?_, C153_written _⟩
  unfold exNet
  rw [h1]
  dsimp only
  rw [h3]

/-- The gateway of the examples of the whole life of a gateway, whose clock says 1000 seconds when the client's says 5, with a time to live of 100. -/
theorem exRun : ∃ set1, run Admin.keyed ⟨Ids.toStr (Merkle.exId 3), 100⟩ newClient
    [.toUse [(['a'], some Admin.exRecord)], .active [(['a'], ⟨List.replicate 32 7, 5000, exNet GatewayLife.exEnv (GatewayLife.live (GatewayAdmin.newNode 1 2 3) [(GatewayLife.exEnv, .admin .initialiseV2, set1)])⟩)]] =
    ⟨[(['a'], Admin.exRecord)], [(['a'], Admin.exRecord)]⟩ := by
  obtain ⟨set1, h1⟩ := GatewayLife.exSet Offer.exKey Offer.exKey_private 1
  refine ⟨set1, C151_active 1 2 3 _ (Merkle.exId 1) Offer.exKey 1 ?_ GatewayLife.exEnv Admin.keyed_correct Admin.exRecord Admin.exOwns rfl ⟨_, 100⟩ (Merkle.exId 3) (Merkle.exId_proper 3) rfl ⟨_, 5000, _⟩
    (by simp) (show inI64 5100 from ⟨by decide, by decide⟩) (show GatewayLife.exEnv.now ≤ 5100 by decide) (exNet_behind _ _ _) _⟩
  simp [GatewayLife.lastKey, GatewayLife.exSet_key h1]

example : GatewayLife.exEnv.now = 5000 / 1000 + 995 ∧ (100 : Int) < 995 ∧ (995 : Int) ≤ 999 * (5000 / 1000) := by decide

/-- So the claim about active gateways speaks of something. -/
example : ∃ h, mget (run Admin.keyed ⟨Ids.toStr (Merkle.exId 3), 100⟩ newClient h).active ['a'] = some Admin.exRecord ∧
    ∃ challenge, Attempted h ['a'] challenge ∧ challenge.length = 32 ∧ Signed Admin.keyed Admin.exRecord challenge := by
  obtain ⟨set1, h⟩ := exRun
  have h' := congrArg (fun c => mget c.active ['a']) h
  exact ⟨_, h', (C155_active _ _ _ ['a'] Admin.exRecord h').2⟩

/-- A late one. -/
example : ∃ m, Message.fromBytes (utf8Bytes (toSend (encodeRequest (Ids.toStr (Merkle.exId 3)) (b64Encode (List.replicate 32 7)) (500 + 100)))) = .ok m ∧
    ∀ x, ¬ GatewayLife.Sends x (GatewayLife.step GatewayLife.exEnv (GatewayAdmin.newNode 1 2 3) (.other .establishment) m).2 :=
  (C156_partial GatewayLife.exEnv _ (Merkle.exId 3) (List.replicate 32 7) (Merkle.exId_proper 3) 500 100 ⟨by decide, by decide⟩ (show (600 : Int) < GatewayLife.exEnv.now by decide)).1

end FcRetrieval.Js
