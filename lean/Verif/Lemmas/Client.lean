import Verif.Spec.Client
import Verif.Lemmas.Maps
import Verif.Lemmas.Gateway
import Verif.Lemmas.OfferMgr
/-! Lemmas about the client. -/
set_option linter.unusedSimpArgs false

namespace FcRetrieval.Client
open FcRetrieval.Ids (Id)
open FcRetrieval.Crypto (KeyPair)
open FcRetrieval.Message (Msg)
open FcRetrieval.Offer (SubOffer)
open FcRetrieval.Register (Record)
open FcRetrieval.Wire (Codec encode decode)
open FcRetrieval.Codecs
open FcRetrieval.Gateway (res_ok_of_bind ofOption_ok verify_snd)

variable {Sig : Type}

/-! ### records -/

theorem validGateway_iff (r : Record) : validGateway r = .ok true ↔ CompleteGateway r := by
  unfold validGateway CompleteGateway
  split
  · rename_i h
    constructor
    · intro h'; cases h'
    · rintro ⟨h1, h2, h3, h4, h5, h6, h7, -⟩
      rcases h with h | h | h | h | h | h | h <;> contradiction
  · rename_i h
    simp only [not_or] at h
    obtain ⟨h1, h2, h3, h4, h5, h6, h7⟩ := h
    cases hk : Crypto.decodePublicKey r.rootSigningKey with
    | ok a =>
      cases hk2 : Crypto.decodePublicKey r.signingKey with
      | ok b => simp [*]
      | err => simp
      | panic => simp
    | err => simp
    | panic => simp

theorem validProvider_iff (r : Record) : validProvider r = .ok true ↔ CompleteProvider r := by
  unfold validProvider CompleteProvider
  split
  · rename_i h
    constructor
    · intro h'; cases h'
    · rintro ⟨h1, h2, h3, h4, h5, h6, -⟩
      rcases h with h | h | h | h | h | h <;> contradiction
  · rename_i h
    simp only [not_or] at h
    obtain ⟨h1, h2, h3, h4, h5, h6⟩ := h
    cases hk : Crypto.decodePublicKey r.rootSigningKey with
    | ok a =>
      cases hk2 : Crypto.decodePublicKey r.signingKey with
      | ok b => simp [*]
      | err => simp
      | panic => simp
    | err => simp
    | panic => simp

theorem checkedKey_ok {look : Id → Option Record} {valid : Record → Res Bool} {id : Id} {k : KeyPair} (h : checkedKey look valid id = .ok k) :
    ∃ r, look id = some r ∧ valid r = .ok true ∧ Crypto.decodePublicKey r.signingKey = .ok k := by
  unfold checkedKey at h
  split at h
  · cases h
  · rename_i r hr
    refine ⟨r, hr, ?_⟩
    split at h
    · cases h
    · rename_i hv
      exact ⟨hv, h⟩
    · cases h

/-! ### requests -/

/-- A request which gets an answer. -/
theorem ask_ok {E : Env Sig} {n : Nat} {r : Record} {q : Res Msg} {a : Msg} (h : (ask E n r q).2 = .ok a) :
    ∃ m, q = .ok m ∧ (ask E n r q).1 = [.asked r.netClient m] ∧ Answered E n r m a := by
  unfold ask at h ⊢
  cases q with
  | panic => cases h
  | err => cases h
  | ok m =>
    refine ⟨m, rfl, rfl, ?_⟩
    dsimp only at h
    obtain ⟨x, hx, h⟩ := res_ok_of_bind h
    obtain ⟨k, hk, h⟩ := res_ok_of_bind h
    split at h
    · rename_i hv
      cases h
      exact ⟨ofOption_ok hx, k, hk, verify_snd.1 hv⟩
    · cases h

/-- What a request shows: nothing, or the message. -/
theorem ask_fst (E : Env Sig) (n : Nat) (r : Record) (q : Res Msg) :
    (ask E n r q).1 = [] ∨ ∃ m, q = .ok m ∧ (ask E n r q).1 = [.asked r.netClient m] := by
  unfold ask
  cases q with
  | panic => exact Or.inl rfl
  | err => exact Or.inl rfl
  | ok m => exact Or.inr ⟨m, rfl, rfl⟩

/-- A signed answer is taken. -/
theorem ask_answered {E : Env Sig} {n : Nat} {r : Record} {m a : Msg} (h : Answered E n r m a) :
    ask E n r (.ok m) = ([.asked r.netClient m], .ok a) := by
  obtain ⟨h1, k, h2, h3⟩ := h
  unfold ask
  dsimp only
  rw [h1, h2]
  simp only [Res.ofOption, Res.bind_ok, verify_snd.2 h3, if_true]

/-! ### maps of gateways -/

/-- The keys of the map are the texts of identifiers, each once. -/
structure Keyed (m : List (List Char × Record)) : Prop where
  text : ∀ k ∈ mkeys m, ∃ id : Id, id.length = 32 ∧ k = Ids.toStr id
  nodup : (mkeys m).Nodup

theorem keyed_nil : Keyed [] := ⟨by simp [mkeys], by simp [mkeys]⟩

theorem idsOf_cons (k : List Char) (r : Record) (m : List (List Char × Record)) {id : Id} (h : Ids.fromHex k = some id) :
    idsOf ((k, r) :: m) = id :: idsOf m := by
  simp [idsOf, h]

theorem mem_idsOf {m : List (List Char × Record)} (h : Keyed m) {id : Id} : id ∈ idsOf m ↔ id.length = 32 ∧ Ids.toStr id ∈ mkeys m := by
  unfold idsOf
  rw [List.mem_filterMap]
  constructor
  · rintro ⟨⟨k, r⟩, he, hf⟩
    obtain ⟨id', h1, h2⟩ := h.text k (List.mem_map.2 ⟨_, he, rfl⟩)
    dsimp only at hf
    rw [h2, Ids.fromHex_toStr h1] at hf
    cases hf
    exact ⟨h1, List.mem_map.2 ⟨_, he, h2⟩⟩
  · rintro ⟨h1, h2⟩
    obtain ⟨e, he, hk⟩ := List.mem_map.1 h2
    exact ⟨e, he, by rw [hk]; exact Ids.fromHex_toStr h1⟩

theorem mem_idsOf_mget {m : List (List Char × Record)} (h : Keyed m) {id : Id} : id ∈ idsOf m ↔ id.length = 32 ∧ ∃ r, mget m (Ids.toStr id) = some r := by
  rw [mem_idsOf h, ← mget_isSome_iff, Option.isSome_iff_exists]

theorem idsOf_nodup {m : List (List Char × Record)} (h : Keyed m) : (idsOf m).Nodup := by
  induction m with
  | nil => simp [idsOf]
  | cons e m ih =>
    obtain ⟨k, r⟩ := e
    have hk : Keyed m := ⟨fun x hx => h.text x (List.mem_cons_of_mem _ hx), (List.nodup_cons.1 h.nodup).2⟩
    obtain ⟨id, h1, rfl⟩ := h.text k (by simp [mkeys])
    rw [idsOf_cons _ _ _ (Ids.fromHex_toStr h1), List.nodup_cons]
    refine ⟨fun hm => ?_, ih hk⟩
    exact (List.nodup_cons.1 h.nodup).1 ((mem_idsOf hk).1 hm).2

theorem idsOf_length {m : List (List Char × Record)} (h : Keyed m) : (idsOf m).length = m.length := by
  induction m with
  | nil => rfl
  | cons e m ih =>
    obtain ⟨k, r⟩ := e
    have hk : Keyed m := ⟨fun x hx => h.text x (List.mem_cons_of_mem _ hx), (List.nodup_cons.1 h.nodup).2⟩
    obtain ⟨id, h1, rfl⟩ := h.text k (by simp [mkeys])
    rw [idsOf_cons _ _ _ (Ids.fromHex_toStr h1)]
    simp [ih hk]

theorem mset_new {m : List (List Char × Record)} {k : List Char} (r : Record) (h : mget m k = none) : mset m k r = m ++ [(k, r)] := by
  induction m with
  | nil => rfl
  | cons e m ih =>
    obtain ⟨a, b⟩ := e
    simp only [mget] at h
    split at h
    · cases h
    · rename_i hne
      simp only [mset, if_neg hne, ih h, List.cons_append]

theorem keyed_mset {m : List (List Char × Record)} (h : Keyed m) {id : Id} (hid : id.length = 32) (r : Record) (hn : mget m (Ids.toStr id) = none) :
    Keyed (mset m (Ids.toStr id) r) ∧ idsOf (mset m (Ids.toStr id) r) = idsOf m ++ [id] := by
  rw [mset_new r hn]
  refine ⟨⟨?_, ?_⟩, ?_⟩
  · intro k hk
    simp only [mkeys, List.map_append, List.mem_append, List.map_cons, List.map_nil, List.mem_singleton] at hk
    rcases hk with hk | hk
    · exact h.text k hk
    · exact ⟨id, hid, hk⟩
  · simp only [mkeys, List.map_append, List.map_cons, List.map_nil]
    rw [List.nodup_append]
    refine ⟨h.nodup, by simp, ?_⟩
    intro a ha b hb
    rw [List.mem_singleton] at hb
    subst hb
    rintro rfl
    exact (mget_none_iff _ _).1 hn ha
  · simp only [idsOf, List.filterMap_append, List.filterMap_cons, List.filterMap_nil, Ids.fromHex_toStr hid]

theorem mkeys_mdel (m : List (List Char × Record)) (k : List Char) : mkeys (mdel m k) = (mkeys m).filter (fun x => decide (x ≠ k)) := by
  simp only [mkeys, mdel, List.filter_map]
  rfl

theorem keyed_mdel {m : List (List Char × Record)} (h : Keyed m) {id : Id} (hid : id.length = 32) :
    Keyed (mdel m (Ids.toStr id)) ∧ idsOf (mdel m (Ids.toStr id)) = (idsOf m).filter (fun x => decide (x ≠ id)) := by
  refine ⟨⟨?_, ?_⟩, ?_⟩
  · intro k hk
    rw [mkeys_mdel] at hk
    exact h.text k (List.mem_filter.1 hk).1
  · rw [mkeys_mdel]
    exact h.nodup.filter _
  · induction m with
    | nil => rfl
    | cons e m ih =>
      obtain ⟨k, r⟩ := e
      have hk : Keyed m := ⟨fun x hx => h.text x (List.mem_cons_of_mem _ hx), (List.nodup_cons.1 h.nodup).2⟩
      obtain ⟨id', h1, rfl⟩ := h.text k (by simp [mkeys])
      rw [idsOf_cons _ _ _ (Ids.fromHex_toStr h1), List.filter_cons, ← ih hk]
      simp only [mdel, List.filter_cons]
      by_cases he : id' = id
      · subst he; simp
      · have : Ids.toStr id' ≠ Ids.toStr id := fun e => he ((OfferMgr.toStr_inj h1 hid).1 e)
        simp [he, this]
        rw [idsOf_cons _ _ _ (Ids.fromHex_toStr h1)]

end FcRetrieval.Client
