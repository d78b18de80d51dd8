import Verif.Spec.Codecs
import Verif.Lemmas.GoMember
import Verif.Props.Message
/-!
# Round trips and totality for structs with JSON tags
-/
set_option linter.unusedSimpArgs false

namespace FcRetrieval.Codecs
open FcRetrieval.Ids (Id)
open FcRetrieval.Merkle (Hash)
open FcRetrieval.Message (Msg Protocol)
open FcRetrieval.Wire

/-- A value is encoded, and decoded to itself. -/
def Good (f : FieldT) (v : f.T) : Prop := ∃ j, f.enc v = .ok j ∧ f.dec (some j) = .ok v

/-- All fields of a struct. -/
def AllGood : (s : Schema) → Vals s → Prop
  | [], _ => True
  | (_, f) :: s, (v, vs) => Good f v ∧ AllGood s vs

theorem decFields_of (fs0 : List (String × Json)) (hn : Distinct (fs0.map Prod.fst)) :
    ∀ (s : Schema) (v : Vals s), AllGood s v → ∀ fs, encFields s v = .ok fs → (∀ x ∈ fs, x ∈ fs0) → decFields s fs0 = .ok v
  | [], (), _, fs, _, _ => rfl
  | (name, f) :: s, (v, vs), ⟨⟨j, h1, h2⟩, hg⟩, fs, he, hm => by
    simp only [encFields, h1, Res.bind_ok] at he
    cases hs : encFields s vs with
    | err => rw [hs] at he; cases he
    | panic => rw [hs] at he; cases he
    | ok js =>
      rw [hs] at he
      simp only [Res.bind_ok, Res.pure_ok, Res.ok.injEq] at he
      subst he
      have hf : memberFor name fs0 = some j := memberFor_eq (hm _ (by simp)) hn
      have ih := decFields_of fs0 hn s vs hg js hs (fun x hx => hm x (by simp [hx]))
      simp only [decFields, hf, h2, Res.bind_ok, ih, Res.pure_ok]
      rfl

theorem encFields_ok : ∀ (s : Schema) (v : Vals s), AllGood s v → ∃ fs, encFields s v = .ok fs ∧ fs.map Prod.fst = s.map Prod.fst
  | [], (), _ => ⟨[], rfl, rfl⟩
  | (name, f) :: s, (v, vs), ⟨⟨j, h1, _⟩, hg⟩ => by
    obtain ⟨fs, h, h'⟩ := encFields_ok s vs hg
    exact ⟨(name, j) :: fs, by simp only [encFields, h1, Res.bind_ok, h, Res.pure_ok], by simp [h']⟩

/-- The struct through its JSON text and back. -/
theorem decode_of_vals {α : Type} (c : Codec α) (m : Msg) (v : Vals c.schema) (hn : Distinct (c.schema.map Prod.fst))
    (hg : AllGood c.schema v) (ht : m.type = c.code) (hb : ∃ fs, encFields c.schema v = .ok fs ∧ m.body = some (Message.jsonText (.obj fs))) :
    decode c m = c.ofWire v := by
  obtain ⟨fs, h1, h2⟩ := hb
  obtain ⟨fs', h1', h3⟩ := encFields_ok c.schema v hg
  rw [h1] at h1'; cases h1'
  have hp : Message.parseText (Message.jsonText (.obj fs)) = some (.obj fs) := json_text_round_trip _
  have hd : decFields c.schema fs = .ok v := decFields_of fs (by rw [h3]; exact hn) c.schema v hg fs h1 (fun x hx => hx)
  unfold decode
  rw [if_neg (by simp [ht]), h2]
  simp only [Option.getD_some, hp, Res.ofOption, Res.bind_ok, decObj, hd]

theorem encode_of_vals {α : Type} (c : Codec α) (pr : Protocol) (a : α) (v : Vals c.schema) (ht : c.toWire a = .ok v)
    {fs : List (String × Json)} (h : encFields c.schema v = .ok fs) :
    encode c pr a = .ok (Message.create pr c.code (some (Message.jsonText (.obj fs)))) := by
  simp only [encode, ht, Res.bind_ok, h, Res.pure_ok]

theorem delivers_of {α : Type} (c : Codec α) (pr : Protocol) (hpr : ProtocolOk pr) (a : α) (v : Vals c.schema) (hn : Distinct (c.schema.map Prod.fst))
    (hc : inI32 c.code) (ht : c.toWire a = .ok v) (hg : AllGood c.schema v) (ho : c.ofWire v = .ok a) : Delivers c pr a := by
  obtain ⟨fs, h1, h2⟩ := encFields_ok c.schema v hg
  refine ⟨Message.create pr c.code (some (Message.jsonText (.obj fs))), ?_, rfl, rfl, rfl, ?_⟩
  · simp only [encode, ht, Res.bind_ok, h1, Res.pure_ok]
  · intro sig
    refine ⟨Message.C27_wire_round_trip _ ⟨hc, hpr.1, hpr.2⟩, ?_⟩
    rw [decode_of_vals c _ v hn hg rfl ⟨fs, h1, rfl⟩, ho]

/-! ## fields -/

theorem good_str (s : List Char) : Good str s := ⟨.str s, rfl, rfl⟩
theorem good_bool (b : Bool) : Good bool b := ⟨.bool b, rfl, rfl⟩
theorem good_i64 {n : Int} (h : inI64 n) : Good i64 n := by
  refine ⟨.num n, rfl, ?_⟩
  have : decI64 (some (.num n)) = some n := if_pos h
  simp only [i64, this, Res.ofOption]
theorem good_i32 {n : Int} (h : inI32 n) : Good i32 n := by
  refine ⟨.num n, rfl, ?_⟩
  have : decI32 (some (.num n)) = some n := if_pos h
  simp only [i32, this, Res.ofOption]
theorem good_u64 {n : Nat} (h : n < 2 ^ 64) : Good u64 n := by
  refine ⟨.num n, rfl, ?_⟩
  simp only [u64, Offer.decU64_num n h, Res.ofOption]
theorem good_u32 (n : UInt32) : Good u32 n := by
  refine ⟨.num n.toNat, rfl, ?_⟩
  have h : decNum 0 4294967295 (some (.num (n.toNat : Int))) = some (n.toNat : Int) :=
    if_pos ⟨by omega, by have := n.toNat_lt; omega⟩
  simp only [u32, h, Option.map_some, Int.toNat_natCast, UInt32.ofNat_toNat, Res.ofOption]

theorem good_slice (f : FieldT) : ∀ (l : List f.T), (∀ x ∈ l, Good f x) → Good (slice f) l := by
  have key : ∀ (l : List f.T), (∀ x ∈ l, Good f x) → ∃ js, encAll f.enc l = .ok js ∧ decAll f.dec js = .ok l := by
    intro l
    induction l with
    | nil => intro _; exact ⟨[], rfl, rfl⟩
    | cons x l ih =>
      intro h
      obtain ⟨j, h1, h2⟩ := h x (by simp)
      obtain ⟨js, h3, h4⟩ := ih (fun y hy => h y (by simp [hy]))
      exact ⟨j :: js, by simp only [encAll, h1, h3, Res.bind_ok, Res.pure_ok], by simp only [decAll, h2, h4, Res.bind_ok, Res.pure_ok]⟩
  intro l h
  obtain ⟨js, h1, h2⟩ := key l h
  exact ⟨.arr js, by simp only [slice, h1, Res.bind_ok, Res.pure_ok], h2⟩

theorem good_msg {m : Msg} (h : Message.InRange m) : Good msg m :=
  ⟨Message.marshal m, rfl, by
    have := Message.C27_wire_round_trip m h
    unfold Message.fromBytes at this
    rw [show Message.parseText (Message.toBytes m) = some (Message.marshal m) from json_text_round_trip _] at this
    exact this⟩
theorem good_offer {H : Hash} {o : Offer.CidOffer} (h : Offer.Built H o) : Good (offer H) o := Offer.C19_offer_round_trip H o h
theorem good_subOffer {o : Offer.SubOffer} (h : Offer.SubInRange o) : Good subOffer o := Offer.C19_sub_offer_round_trip o h
theorem good_proof {p : Merkle.Proof} (h : ProofOk p) : Good proof p := ⟨Merkle.marshal p, rfl, Merkle.C15_round_trip p h.1 h.2.1 h.2.2⟩

theorem ids_toString {l : List Id} (h : IdsOk l) : ids (Ids.mapToString l) = .ok l := by
  unfold ids
  rw [Offer.mapFromString_mapToString l h]

/-! ## totality -/

/-- No JSON value makes the field's decoder crash. -/
def NoPanicF (f : FieldT) : Prop := ∀ j, f.dec j ≠ .panic

theorem ofOption_ne_panic {α : Type} (x : Option α) : Res.ofOption x ≠ .panic := by cases x <;> simp [Res.ofOption]

theorem bind_ne_panic {α β : Type} {x : Res α} {f : α → Res β} (hx : x ≠ .panic) (hf : ∀ a, f a ≠ .panic) : (x >>= f) ≠ .panic := by
  cases x with
  | ok a => exact hf a
  | err => simp
  | panic => exact absurd rfl hx

theorem np_str : NoPanicF str := fun _ => ofOption_ne_panic _
theorem np_i64 : NoPanicF i64 := fun _ => ofOption_ne_panic _
theorem np_i32 : NoPanicF i32 := fun _ => ofOption_ne_panic _
theorem np_u64 : NoPanicF u64 := fun _ => ofOption_ne_panic _
theorem np_u32 : NoPanicF u32 := fun _ => ofOption_ne_panic _
theorem np_bool : NoPanicF bool := fun _ => ofOption_ne_panic _

theorem np_slice {f : FieldT} (h : NoPanicF f) : NoPanicF (slice f) := by
  have key : ∀ l, decAll f.dec l ≠ .panic := by
    intro l
    induction l with
    | nil => simp [decAll]
    | cons j l ih => exact bind_ne_panic (h _) (fun a => bind_ne_panic ih (fun b => by simp))
  intro j
  unfold slice
  simp only
  split
  · simp
  · simp
  · exact key _
  · simp

theorem np_msg : NoPanicF msg := by
  intro j
  unfold msg
  simp only
  cases j with
  | none => simp
  | some j =>
    simp only [Message.unmarshal]
    repeat' first | refine bind_ne_panic (ofOption_ne_panic _) (fun _ => ?_)
    simp

theorem np_proof : NoPanicF proof := by
  intro j
  unfold proof Offer.decProof
  simp only
  cases j with
  | none => simp
  | some j => exact Merkle.C15_decode_never_panics j

theorem np_subOffer : NoPanicF subOffer := by
  intro j
  unfold subOffer
  simp only
  cases j with
  | none => simp
  | some j =>
    simp only [Offer.subUnmarshal]
    repeat' first | refine bind_ne_panic (ofOption_ne_panic _) (fun _ => ?_) | refine bind_ne_panic (np_proof _) (fun _ => ?_)
    simp

theorem decFields_np : ∀ (s : Schema), (∀ x ∈ s, NoPanicF x.2) → ∀ fs, decFields s fs ≠ .panic
  | [], _, fs => by simp [decFields]
  | (name, f) :: s, h, fs =>
    bind_ne_panic (h (name, f) (by simp) _) (fun a => bind_ne_panic (decFields_np s (fun x hx => h x (by simp [hx])) fs) (fun b => by simp))

theorem neverPanics_of {α : Type} (c : Codec α) (hs : ∀ x ∈ c.schema, NoPanicF x.2) (ho : ∀ v, c.ofWire v ≠ .panic) : NeverPanics c := by
  intro m
  unfold decode
  split
  · simp
  · exact bind_ne_panic (ofOption_ne_panic _) (fun _ => bind_ne_panic (ofOption_ne_panic _) (fun _ => bind_ne_panic (decFields_np _ hs _) ho))

end FcRetrieval.Codecs
