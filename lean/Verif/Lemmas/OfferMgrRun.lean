import Verif.Lemmas.OfferMgr
import Verif.Props.Ring
/-! Helper lemmas: range listings and histories of the offer manager. -/
set_option linter.unusedSimpArgs false
namespace FcRetrieval.OfferMgr
open FcRetrieval.Ids (Id Proper position)
open FcRetrieval.Merkle (Hash)
open FcRetrieval.Offer (CidOffer terms InRange)
open FcRetrieval.Ring (Fault)

theorem limit_pos (max : Int) : 1 ≤ limit max := by unfold limit; split <;> omega

theorem limit_step (n : Nat) (max : Int) : ((n : Int) + 1 ≥ max) ↔ n + 1 ≥ limit max := by unfold limit; split <;> omega

theorem appendUpTo_eq (max : Int) : ∀ (l offers : List CidOffer), offers.length < limit max →
    appendUpTo max offers l =
      if offers.length + l.length ≥ limit max then (offers ++ l.take (limit max - offers.length), true) else (offers ++ l, false)
  | [], offers, h => by
    rw [if_neg (by simp; omega)]
    simp [appendUpTo]
  | o :: os, offers, h => by
    unfold appendUpTo
    by_cases h1 : offers.length + 1 ≥ limit max
    · rw [if_pos ((limit_step _ _).2 h1), if_pos (by simp; omega)]
      have : limit max - offers.length = 1 := by omega
      rw [this]
      rfl
    · rw [if_neg (fun h2 => h1 ((limit_step _ _).1 h2))]
      rw [appendUpTo_eq max os (offers ++ [o]) (by simp; omega)]
      have e : (offers ++ [o]).length + os.length = offers.length + (o :: os).length := by simp; omega
      rw [e]
      split
      · have : limit max - offers.length = (limit max - (offers ++ [o]).length) + 1 := by simp; omega
        rw [this, List.take_succ_cons]
        simp
      · simp

theorem listing_purge (t : Clock) (acc : List CidOffer) (c c' : Id) : listing t (purge t acc c') c = listing t acc c := by
  unfold listing purge
  rw [List.filter_filter]
  refine List.filter_congr ?_
  intro o _
  cases expired o t <;> simp

theorem listings_purge (t : Clock) (acc : List CidOffer) (c' : Id) : ∀ (es : List Id) (full : List CidOffer),
    Listings t (purge t acc c') es full ↔ Listings t acc es full
  | [], full => Iff.rfl
  | c :: cs, full => by
    simp only [Listings, listing_purge, listings_purge t acc c' cs]

theorem listings_exists (t : Clock) (acc : List CidOffer) : ∀ es : List Id, ∃ full, Listings t acc es full
  | [] => ⟨[], rfl⟩
  | c :: cs => by
    obtain ⟨rest, h⟩ := listings_exists t acc cs
    exact ⟨_, _, rest, List.Perm.refl _, h, rfl⟩

theorem decide_pos_isEmpty (l : List CidOffer) : decide (l.length > 0) = !l.isEmpty := by cases l <;> simp

theorem take_isEmpty (l : List CidOffer) (max : Int) : (l.take (limit max)).isEmpty = l.isEmpty := by
  have := limit_pos max
  cases l with
  | nil => simp
  | cons a l =>
    obtain ⟨k, hk⟩ : ∃ k, limit max = k + 1 := ⟨limit max - 1, by omega⟩
    rw [hk]; rfl

theorem rangeGo_rep {H512 : Hash} {order : DigestMap CidOffer → DigestMap CidOffer} (hord : ∀ dm, (order dm).Perm dm) {t : Clock}
    {max : Int} : ∀ (entries : List (List Char)) (st : Storage CidOffer) (acc offers : List CidOffer), Rep H512 st acc →
    offers.length < limit max →
    ∃ st' es full visited found, rangeGo H512 id order t max entries st offers = .ok (st', (offers ++ full).take (limit max), found) ∧
      Listings t acc es full ∧ visited <+: es ∧ Rep H512 st' (visited.foldl (purge t) acc) ∧
      ∀ es0 : List Id, (∀ c ∈ es0, Proper c) → entries = es0.map Ids.toStr → es = es0 ∧ found = !(offers ++ full).isEmpty
  | [], st, acc, offers, hr, hl => by
    refine ⟨st, [], [], [], decide (offers.length > 0), ?_, rfl, List.prefix_refl _, hr, ?_⟩
    · rw [List.append_nil, List.take_of_length_le (by omega)]
      rfl
    · intro es0 _ h
      have : es0 = [] := by simpa using h.symm
      rw [this, decide_pos_isEmpty]
      simp
  | entry :: rest, st, acc, offers, hr, hl => by
    cases h : Ids.fromHex entry with
    | none =>
      refine ⟨st, [], [], [], false, ?_, rfl, List.prefix_refl _, hr, ?_⟩
      · rw [List.append_nil, List.take_of_length_le (by omega)]
        simp only [rangeGo, h]
      · intro es0 hp he
        cases es0 with
        | nil => simp at he
        | cons c cs =>
          simp only [List.map_cons, List.cons.injEq] at he
          rw [he.1, Ids.fromHex_toStr (hp c (by simp))] at h
          cases h
    | some c =>
      have hc : Proper c := by
        unfold Ids.fromHex at h
        split at h
        · cases h
        · exact Ids.fromBytes_proper h
      obtain ⟨st1, l, e1, e2, e3⟩ := get_rep (c := c) (t := t) hord hr hc
      by_cases hstop : offers.length + l.length ≥ limit max
      · obtain ⟨full, hfull⟩ := listings_exists t acc (rest.filterMap Ids.fromHex)
        have he : rangeGo H512 id order t max (entry :: rest) st offers =
            .ok (st1, offers ++ l.take (limit max - offers.length), decide ((offers ++ l.take (limit max - offers.length)).length > 0)) := by
          simp only [rangeGo, h, bind, Except.bind, e1]
          rw [appendUpTo_eq max l offers hl, if_pos hstop]
          rfl
        have htake : (offers ++ (l ++ full)).take (limit max) = offers ++ l.take (limit max - offers.length) := by
          rw [List.take_append, List.take_of_length_le (by omega), List.take_append]
          have : limit max - offers.length - l.length = 0 := by omega
          rw [this]
          simp
        refine ⟨st1, c :: rest.filterMap Ids.fromHex, l ++ full, [c], _, by rw [he, htake], ⟨l, full, e2, hfull, rfl⟩,
          ⟨_, rfl⟩, e3, ?_⟩
        intro es0 hp hes
        cases es0 with
        | nil => simp at hes
        | cons c0 cs0 =>
          simp only [List.map_cons, List.cons.injEq] at hes
          rw [hes.1, Ids.fromHex_toStr (hp c0 (by simp))] at h
          cases h
          refine ⟨?_, by rw [← htake, decide_pos_isEmpty, take_isEmpty]⟩
          rw [hes.2, List.filterMap_map]
          have : ∀ (l : List Id), (∀ x ∈ l, Proper x) → l.filterMap (Ids.fromHex ∘ Ids.toStr) = l := by
            intro l
            induction l with
            | nil => intro _; rfl
            | cons x xs ih =>
              intro hx
              rw [List.filterMap_cons]
              simp only [Function.comp, Ids.fromHex_toStr (hx x (by simp))]
              have := ih (fun y hy => hx y (by simp [hy]))
              simp only [Function.comp_def] at this ⊢
              rw [this]
          rw [this cs0 (fun x hx => hp x (by simp [hx]))]
      · obtain ⟨st', es, full, visited, found, f1, f2, f3, f4, f5⟩ :=
          rangeGo_rep hord (t := t) (max := max) rest st1 _ (offers ++ l) e3 (by simp; omega)
        refine ⟨st', c :: es, l ++ full, c :: visited, found, ?_, ⟨l, full, e2, (listings_purge _ _ _ _ _).1 f2, rfl⟩, ?_, f4, ?_⟩
        · simp only [rangeGo, h, bind, Except.bind, e1]
          rw [appendUpTo_eq max l offers hl, if_neg hstop]
          simp only [f1, List.append_assoc]
        · obtain ⟨x, hx⟩ := f3
          exact ⟨x, by rw [← hx]; rfl⟩
        · intro es0 hp hes
          cases es0 with
          | nil => simp at hes
          | cons c0 cs0 =>
            simp only [List.map_cons, List.cons.injEq] at hes
            rw [hes.1, Ids.fromHex_toStr (hp c0 (by simp))] at h
            cases h
            obtain ⟨g1, g2⟩ := f5 cs0 (fun x hx => hp x (by simp [hx])) hes.2
            exact ⟨by rw [g1], by rw [g2, List.append_assoc]⟩

end FcRetrieval.OfferMgr
