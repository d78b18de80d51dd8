import Verif.Spec.SqlConn
import Verif.Props.Gateway
import Verif.Props.SqlOffer
/-!
# C178: lookups give back their connections to the database

False: a search by digest that finds an offer keeps its connection for ever, and so does a listing that comes to its limit.
-/
set_option linter.unusedSimpArgs false
namespace FcRetrieval.SqlOffer.Conn
open FcRetrieval.Ids (Id)
open FcRetrieval.Merkle (Hash)
open FcRetrieval.Offer (CidOffer)

theorem newOffer_cids {H : Hash} {p : Option Id} {ids : List Id} {price : Nat} {expiry : Int} {qos : Nat} {o : CidOffer}
    (h : Offer.newOffer H p ids price expiry qos = some o) : ids.isEmpty = false := by
  cases ids with
  | nil => simp [Offer.newOffer] at h
  | cons a l => rfl

/-- With room for the second connection the loop does what it does in `Model/SqlOffer`. -/
theorem selectGo_room {H : Hash} {room : Nat} {db : DB} {max : Int} : ∀ (rows : List OfferRow) {held : Nat} (res : List CidOffer) (find : Bool),
    1 ≤ held → held < room → (max > 0 → (res.length : Int) < max) →
    (selectGo H room db max rows held res find).2 = SqlOffer.selectGo H db max rows res find ∧
    ∀ l f, SqlOffer.selectGo H db max rows res find = .ok (l, f) →
      (selectGo H room db max rows held res find).1 + 1 = held + (if max > 0 ∧ (l.length : Int) ≥ max then 1 else 0) ∧ (find = true → f = true) ∧ (f = false → l = res)
  | [], held, res, find, h1, h2, h3 => by
    refine ⟨rfl, ?_⟩
    intro l f h
    simp only [SqlOffer.selectGo, Res.ok.injEq, Prod.mk.injEq] at h
    obtain ⟨rfl, rfl⟩ := h
    simp only [selectGo]
    refine ⟨?_, id, fun _ => trivial⟩
    rw [if_neg (by intro h; have := h3 h.1; omega)]
    omega
  | r :: rows, held, res, find, h1, h2, h3 => by
    simp only [selectGo, SqlOffer.selectGo, rebuild]
    rw [if_neg (by omega)]
    cases hm : Ids.mapFromString (contentOf db r.digest) with
    | none => exact ⟨rfl, fun l f h => by cases h⟩
    | some ids =>
      dsimp only
      cases ho : Offer.newOffer H (Ids.fromHex r.provider) ids r.price r.expiry r.qos with
      | none => exact ⟨rfl, fun l f h => by cases h⟩
      | some o =>
        have hne := newOffer_cids ho
        simp only [bind, Res.bind, pure, hne, Bool.not_false, Bool.or_true]
        by_cases hl : (((res ++ [({ o with signature := r.signature } : CidOffer)]).length : Nat) : Int) ≥ max ∧ max > 0
        · rw [if_pos hl, if_pos hl]
          refine ⟨rfl, ?_⟩
          intro l f h
          simp only [Res.ok.injEq, Prod.mk.injEq] at h
          obtain ⟨rfl, rfl⟩ := h
          exact ⟨by rw [if_pos ⟨hl.2, hl.1⟩], fun _ => rfl, fun h => by cases h⟩
        · rw [if_neg hl, if_neg hl]
          obtain ⟨e1, e2⟩ := selectGo_room rows (held := held) (res ++ [{ o with signature := r.signature }]) true h1 h2 (by
            intro h
            by_cases hc : (((res ++ [({ o with signature := r.signature } : CidOffer)]).length : Nat) : Int) < max
            · exact hc
            · exact absurd ⟨by omega, h⟩ hl)
          refine ⟨e1, fun l f h => ⟨(e2 l f h).1, fun _ => (e2 l f h).2.1 rfl, ?_⟩⟩
          intro hf
          rw [(e2 l f h).2.1 rfl] at hf
          cases hf

/-- A search with room for two connections is that of `Model/SqlOffer`; it keeps a connection if it comes to its limit. -/
theorem select_room {H : Hash} {room : Nat} {s : Store} {max : Int} {rows : List OfferRow} (hr : s.held + 2 ≤ room) :
    (select H room s max rows).1.db = s.db ∧ (select H room s max rows).2 = SqlOffer.selectGo H s.db max rows [] false ∧
    ∀ l f, SqlOffer.selectGo H s.db max rows [] false = .ok (l, f) →
      (select H room s max rows).1.held = s.held + (if max > 0 ∧ (l.length : Int) ≥ max then 1 else 0) ∧ (f = false → l = []) := by
  obtain ⟨e1, e2⟩ := selectGo_room (H := H) (room := room) (db := s.db) (max := max) rows (held := s.held + 1) [] false (by omega) (by omega) (by simp)
  unfold select
  rw [if_neg (by omega)]
  refine ⟨rfl, e1, fun l f h => ⟨?_, (e2 l f h).2.2⟩⟩
  have := (e2 l f h).1
  dsimp only
  omega

/-- **C178**, one call: with room for two more connections a call that does not crash changes the database and answers as with connections without end, and keeps as
many connections as `kept` tells. -/
theorem exec_room {H H512 : Hash} {room : Nat} {s : Store} (hr : s.held + 2 ≤ room) (w : When) (op : Op) (hp : (ideal H H512 s.db w op).2 ≠ .panic) :
    exec H H512 room s w op = (⟨(ideal H H512 s.db w op).1, s.held + kept op (ideal H H512 s.db w op).2⟩, (ideal H H512 s.db w op).2) := by
  cases op with
  | add o =>
    have hf : (fun _ : Nat => decide (room ≤ s.held)) = fun _ => false := by
      funext _
      rw [decide_eq_false_iff_not]
      omega
    simp only [exec, add, ideal, hf] at hp ⊢
    cases hi : insertOffer H512 (fun _ => false) s.db o with
    | ok e => simp [Out.ofDone, kept]
    | err => rw [hi] at hp; exact absurd rfl hp
    | panic => rw [hi] at hp; exact absurd rfl hp
  | byCid c =>
    simp only [exec, ideal, getOffers, SqlOffer.getOffers, selectSingle] at hp ⊢
    generalize w.order _ = rows at hp ⊢
    obtain ⟨e1, e2, e3⟩ := select_room (H := H) (max := -1) (rows := rows) hr
    cases hs : SqlOffer.selectGo H s.db (-1) rows [] false with
    | ok e =>
      have e4 := (e3 e.1 e.2 hs).1
      rw [if_neg (by omega)] at e4
      rw [hs] at e2
      simp only [e2, Out.ofList, kept, ← e4, ← e1]
    | err => rw [hs] at hp; exact absurd rfl hp
    | panic => rw [hs] at hp; exact absurd rfl hp
  | range a b max =>
    simp only [exec, ideal, getDhtRange, SqlOffer.getDhtRange, selectRange] at hp ⊢
    generalize w.order _ = rows at hp ⊢
    obtain ⟨e1, e2, e3⟩ := select_room (H := H) (max := max) (rows := rows) hr
    cases hs : SqlOffer.selectGo H s.db max rows [] false with
    | ok e =>
      have e4 := (e3 e.1 e.2 hs).1
      rw [hs] at e2
      simp only [e2, Out.ofList, kept, ← e4, ← e1]
    | err => rw [hs] at hp; exact absurd rfl hp
    | panic => rw [hs] at hp; exact absurd rfl hp
  | byDigest d =>
    simp only [exec, ideal, getByDigest, SqlOffer.getByDigest, selectDigest] at hp ⊢
    generalize w.order _ = rows at hp ⊢
    obtain ⟨e1, e2, e3⟩ := select_room (H := H) (max := 1) (rows := rows) hr
    generalize select H room s 1 rows = q at e1 e2 e3
    obtain ⟨s', r⟩ := q
    dsimp only at e1 e2 e3
    cases hs : SqlOffer.selectGo H s.db 1 rows [] false with
    | ok e =>
      obtain ⟨l, f⟩ := e
      obtain ⟨e4, e5⟩ := e3 l f hs
      rw [hs] at e2 hp
      subst e2
      cases f with
      | false =>
        have := e5 rfl
        subst this
        rw [if_neg (by simp)] at e4
        simp [bind, Res.bind, pure, Out.ofOne, kept, ← e1, ← e4]
      | true =>
        cases l with
        | nil => simp [bind, Res.bind, pure, Out.ofOne] at hp
        | cons o l =>
          rw [if_pos ⟨by omega, by simp only [List.length_cons]; omega⟩] at e4
          simp [bind, Res.bind, pure, Out.ofOne, kept, ← e1, ← e4]
    | err => rw [hs] at hp; exact absurd rfl hp
    | panic => rw [hs] at hp; exact absurd rfl hp

theorem exact_room {H H512 : Hash} {room : Nat} : ∀ (h : List (When × Op)) (s : Store), (∀ out ∈ (idealAll H H512 s.db h).2, out ≠ .panic) →
    s.held + keptAll h (idealAll H H512 s.db h).2 + 2 ≤ room →
    execAll H H512 room s h = (⟨(idealAll H H512 s.db h).1, s.held + keptAll h (idealAll H H512 s.db h).2⟩, (idealAll H H512 s.db h).2)
  | [], s, _, _ => rfl
  | (w, op) :: h, s, hp, hr => by
    simp only [idealAll, List.mem_cons, keptAll] at hp hr
    have e1 := exec_room (H := H) (H512 := H512) (room := room) (s := s) (by omega) w op (hp _ (.inl rfl))
    have ih := exact_room (H := H) (H512 := H512) (room := room) h ⟨(ideal H H512 s.db w op).1, s.held + kept op (ideal H H512 s.db w op).2⟩
      (fun out ho => hp out (.inr ho)) (by dsimp only; omega)
    simp only [execAll, e1, ih, idealAll, keptAll]
    simp only [Nat.add_assoc]

theorem rows_of {H512 : Hash} {acc : List CidOffer} : ∀ (rows : List OfferRow), (∀ r ∈ rows, r ∈ (encode H512 acc).offers) →
    ∃ L : List CidOffer, rows = L.map (rowOf H512) ∧ ∀ o ∈ L, o ∈ acc
  | [], _ => ⟨[], rfl, by simp⟩
  | r :: rows, h => by
    obtain ⟨L, hL, hm⟩ := rows_of rows (fun r hr => h r (by simp [hr]))
    obtain ⟨o, ho, hr⟩ := List.mem_map.mp (h r (by simp))
    refine ⟨o :: L, by rw [List.map_cons, hr, hL], fun x hx => ?_⟩
    rcases List.mem_cons.1 hx with rfl | hx
    · exact ho
    · exact hm x hx

/-- The offers after a call. -/
def after (acc : List CidOffer) : Op → List CidOffer
  | .add o => keep acc o
  | _ => acc

/-- In a manager with connections without end that stores offers built by the constructor no call crashes. -/
theorem ideal_good {H H512 : Hash} {acc : List CidOffer} (hg : Good H H512 acc) (w : When) (hw : ∀ l, (w.order l).Perm l) (op : Op)
    (ho : ∀ o, op = .add o → Offer.Built H o ∧ OfferMgr.NoCollision H512 (o :: acc)) :
    (ideal H H512 (encode H512 acc) w op).2 ≠ .panic ∧
    (ideal H H512 (encode H512 acc) w op).1 = encode H512 (after acc op) := by
  have look : ∀ (max : Int) (rows : List OfferRow), (∀ r ∈ rows, r ∈ (encode H512 acc).offers) →
      ∃ l, SqlOffer.selectGo H (encode H512 acc) max (w.order rows) [] false = .ok (l, !l.isEmpty) := by
    intro max rows hr
    obtain ⟨L, hL, hm⟩ := rows_of (w.order rows) (fun r h => hr r ((hw rows).mem_iff.1 h))
    rw [hL, selectGo_encode hg max L hm [] false (by simp)]
    refine ⟨[] ++ if max ≤ 0 then L else L.take (max.toNat - ([] : List CidOffer).length), ?_⟩
    cases L with
    | nil => simp
    | cons o L =>
      by_cases h : max ≤ 0
      · simp [h]
      · obtain ⟨n, hn⟩ : ∃ n, max.toNat = n + 1 := ⟨max.toNat - 1, by omega⟩
        simp [h, hn]
  cases op with
  | add o =>
    obtain ⟨h1, h2⟩ := ho o rfl
    simp [ideal, insert_rep hg h1 h2, after]
  | byCid c =>
    simp only [ideal, SqlOffer.getOffers, selectSingle]
    obtain ⟨l, hl⟩ := look (-1) ((encode H512 acc).offers.flatMap (fun o => if unexpired w.off w.now o.expiry then
        ((encode H512 acc).contents.filter (fun k => k.digest = o.digest ∧ k.cid = Ids.toStr c)).map (fun _ => o) else [])) (by
      intro r hr
      obtain ⟨o, ho, h⟩ := List.mem_flatMap.1 hr
      split at h
      · obtain ⟨_, _, rfl⟩ := List.mem_map.1 h
        exact ho
      · simp at h)
    rw [hl]
    simp [Out.ofList, after]
  | range a b max =>
    simp only [ideal, SqlOffer.getDhtRange, selectRange]
    obtain ⟨l, hl⟩ := look max _ (fun r hr => (List.mem_filter.1 hr).1)
    rw [hl]
    simp [Out.ofList, after]
  | byDigest d =>
    simp only [ideal, SqlOffer.getByDigest, selectDigest]
    obtain ⟨l, hl⟩ := look 1 _ (fun r hr => (List.mem_filter.1 hr).1)
    rw [hl]
    cases l <;> simp [bind, Res.bind, pure, Out.ofOne, after]

theorem ideal_never {H H512 : Hash} : ∀ (h : List (When × Op)) {acc : List CidOffer}, Good H H512 acc → (∀ e ∈ h, ∀ l, (e.1.order l).Perm l) →
    (∀ o ∈ addsOf h, Offer.Built H o) → OfferMgr.NoCollision H512 (addsOf h ++ acc) → ∀ out ∈ (idealAll H H512 (encode H512 acc) h).2, out ≠ .panic
  | [], _, _, _, _, _, out, ho => by simp [idealAll] at ho
  | (w, op) :: h, acc, hg, hw, hb, hno, out, ho => by
    have hop : ∀ o, op = .add o → Offer.Built H o ∧ OfferMgr.NoCollision H512 (o :: acc) := by
      rintro o rfl
      refine ⟨hb o (by simp [addsOf]), ?_⟩
      intro x hx y hy
      exact hno x (by simp [addsOf] at hx ⊢; grind) y (by simp [addsOf] at hy ⊢; grind)
    obtain ⟨e1, e2⟩ := ideal_good hg w (hw (w, op) (by simp)) op hop
    simp only [idealAll, List.mem_cons] at ho
    rcases ho with rfl | ho
    · exact e1
    · rw [e2] at ho
      refine ideal_never h ?_ (fun e he => hw e (by simp [he])) ?_ ?_ out ho
      · cases op with
        | add o => exact keep_good hg (hop o rfl).1 (hop o rfl).2
        | _ => exact hg
      · intro o h1
        refine hb o ?_
        simp only [addsOf, List.filterMap_cons] at h1 ⊢
        split
        · exact h1
        · exact List.mem_cons_of_mem _ h1
      · intro x hx y hy
        have hsub : ∀ z ∈ addsOf h ++ after acc op, z ∈ addsOf ((w, op) :: h) ++ acc := by
          intro z hz
          rcases List.mem_append.1 hz with hz | hz
          · refine List.mem_append.2 (.inl ?_)
            simp only [addsOf, List.filterMap_cons] at hz ⊢
            split
            · exact hz
            · exact List.mem_cons_of_mem _ hz
          · cases op with
            | add o =>
              rcases keep_subset hz with rfl | hz
              · simp [addsOf]
              · exact List.mem_append.2 (.inr hz)
            | _ => exact List.mem_append.2 (.inr hz)
        exact hno x (hsub x hx) y (hsub y hy)

/-- **C178**: how many connections a history of calls keeps.  While there is room, every call is answered as with connections without end, and when all have been answered as
many connections are in use as offers were found by their digest and listings came to their limit. -/
theorem C178_exact {H H512 : Hash} {room : Nat} (h : List (When × Op)) (hs : Sane H H512 (addsOf h)) (hw : ∀ e ∈ h, ∀ l, (e.1.order l).Perm l)
    (hr : keptAll h (idealAll H H512 newDB h).2 + 2 ≤ room) :
    execAll H H512 room ⟨newDB, 0⟩ h = (⟨(idealAll H H512 newDB h).1, keptAll h (idealAll H H512 newDB h).2⟩, (idealAll H H512 newDB h).2) := by
  have := exact_room (H := H) (H512 := H512) (room := room) h ⟨newDB, 0⟩
    (ideal_never (H := H) h (acc := []) ⟨by simp, by simp⟩ hw hs.1 (by simpa using hs.2)) (by simpa using hr)
  simpa using this

/-- **C178 (partial)**: a history without searches by digest and without listings that have a limit keeps no connection, and is answered as with connections without
end.  What is missing: the other two kinds of calls (`C178_exhausted_refuted`). -/
theorem C178_given_back_partial {H H512 : Hash} {room : Nat} (hroom : 2 ≤ room) (h : List (When × Op)) (hs : Sane H H512 (addsOf h))
    (hw : ∀ e ∈ h, ∀ l, (e.1.order l).Perm l) (hop : ∀ e ∈ h, match e.2 with | .byDigest _ => False | .range _ _ max => max ≤ 0 | _ => True) :
    execAll H H512 room ⟨newDB, 0⟩ h = (⟨(idealAll H H512 newDB h).1, 0⟩, (idealAll H H512 newDB h).2) := by
  have key : ∀ (h : List (When × Op)) (outs : List Out), (∀ e ∈ h, match e.2 with | .byDigest _ => False | .range _ _ max => max ≤ 0 | _ => True) → keptAll h outs = 0 := by
    intro h
    induction h with
    | nil => intro outs _; rfl
    | cons e h ih =>
      intro outs ho
      cases outs with
      | nil => rfl
      | cons out outs =>
        obtain ⟨w, op⟩ := e
        have h1 := ho (w, op) (by simp)
        simp only [keptAll, ih outs (fun e he => ho e (by simp [he])), Nat.add_zero]
        cases op with
        | byDigest d => exact absurd h1 id
        | range a b max =>
          cases out with
          | offers l f =>
            simp only [kept]
            rw [if_neg (by dsimp only at h1; omega)]
          | _ => rfl
        | _ => rfl
  have h0 := key h (idealAll H H512 newDB h).2 hop
  rw [C178_exact h hs hw (by omega), h0]

/-- A search by digest that finds an offer, when only one connection is left: the second one cannot be had. -/
theorem digest_last {H H512 : Hash} {room : Nat} {s : Store} (hr : s.held + 1 = room) (w : When) (d : Bytes) {o : CidOffer}
    (hf : SqlOffer.getByDigest H w.order w.off w.now s.db d = .ok (some o)) : exec H H512 room s w (.byDigest d) = (⟨s.db, room⟩, .panic) := by
  simp only [exec, getByDigest, SqlOffer.getByDigest, selectDigest] at hf ⊢
  generalize w.order _ = rows at hf ⊢
  cases rows with
  | nil => simp [SqlOffer.selectGo, bind, Res.bind, pure] at hf
  | cons r rows =>
    unfold select
    rw [if_neg (by omega)]
    simp only [selectGo]
    rw [if_pos (by omega)]
    simp only [Out.ofOne, ← hr]

/-- Without room every call finds nothing and stores nothing. -/
theorem exec_full {H H512 : Hash} {room : Nat} {s : Store} (hr : room ≤ s.held) (w : When) (op : Op)
    (ho : ∀ o, op = .add o → (∃ d, Offer.digest H512 o = .ok d) ∧ o.providerID ≠ none) : exec H H512 room s w op = (s, nothing op) := by
  cases op with
  | add o =>
    obtain ⟨⟨d, hd⟩, hp⟩ := ho o rfl
    obtain ⟨p, hp⟩ := Option.ne_none_iff_exists'.mp hp
    simp [exec, add, insertOffer, hd, hp, bind, Res.bind, pure, hr, Out.ofDone, nothing]
  | byCid c => simp [exec, getOffers, select, hr, Out.ofList, nothing]
  | range a b max => simp [exec, getDhtRange, select, hr, Out.ofList, nothing]
  | byDigest d => simp [exec, getByDigest, select, hr, Out.ofOne, nothing]

theorem execAll_full {H H512 : Hash} {room : Nat} {s : Store} (hr : room ≤ s.held) : ∀ (h : List (When × Op)),
    (∀ e ∈ h, ∀ o, e.2 = .add o → (∃ d, Offer.digest H512 o = .ok d) ∧ o.providerID ≠ none) → execAll H H512 room s h = (s, h.map (fun e => nothing e.2))
  | [], _ => rfl
  | (w, op) :: h, ho => by
    have e1 := exec_full (H := H) (H512 := H512) hr w op (ho (w, op) (by simp))
    have ih := execAll_full (H := H) (H512 := H512) hr h (fun e he => ho e (by simp [he]))
    simp only [execAll, e1, ih, List.map_cons]

theorem execAll_append {H H512 : Hash} {room : Nat} : ∀ (h h' : List (When × Op)) (s : Store),
    execAll H H512 room s (h ++ h') =
      ((execAll H H512 room (execAll H H512 room s h).1 h').1, (execAll H H512 room s h).2 ++ (execAll H H512 room (execAll H H512 room s h).1 h').2)
  | [], _, _ => rfl
  | (w, op) :: h, h', s => by
    simp only [List.cons_append, execAll, execAll_append h h']

/-- Searches by digest, while there is room. -/
theorem digests_room {H H512 : Hash} {room : Nat} {db : DB} {d : Bytes} {o : CidOffer} : ∀ (ws : List When) (held : Nat),
    (∀ w ∈ ws, SqlOffer.getByDigest H w.order w.off w.now db d = .ok (some o)) → held + ws.length + 1 ≤ room →
    execAll H H512 room ⟨db, held⟩ (ws.map (fun w => (w, .byDigest d))) = (⟨db, held + ws.length⟩, ws.map (fun _ => .one (some o)))
  | [], _, _, _ => rfl
  | w :: ws, held, hf, hr => by
    have hw := hf w (by simp)
    simp only [List.length_cons] at hr
    have e1 := exec_room (H := H) (H512 := H512) (room := room) (s := ⟨db, held⟩) (by dsimp only; omega) w (.byDigest d) (by simp [ideal, hw, Out.ofOne])
    simp only [ideal, hw, Out.ofOne, kept] at e1
    have ih := digests_room (H := H) (H512 := H512) (room := room) ws (held + 1) (fun w hw => hf w (by simp [hw])) (by omega)
    simp only [List.map_cons, execAll, e1, ih, List.length_cons]
    simp only [Nat.add_assoc, Nat.add_comm 1]

/-- **C178 (refuted).** Whatever the number of connections that can be in use at the same time: after any history of additions, an offer on sale is found by its digest as
often as there are connections but one.  The search after that crashes.  From then on, for ever and in every history of calls, no search by content, by range or by digest
finds anything, though nothing has expired, and nothing can be added. -/
theorem C178_exhausted_refuted {H H512 : Hash} (room : Nat) (h : List (Kind × CidOffer)) (hs : Sane H H512 (h.map (·.2))) (o : CidOffer) (d : Bytes)
    (ho : o ∈ stored (h.map (·.2))) (hd : Offer.digest H512 o = .ok d) (ws : List When) (w : When) (hlen : ws.length + 1 = room)
    (hw : ∀ w' ∈ w :: ws, (∀ l, (w'.order l).Perm l) ∧ 0 ≤ w'.now - w'.off ∧ w'.now - w'.off < o.expiry ∧ o.expiry ≤ 253402300799)
    (later : List (When × Op)) (hl : ∀ e ∈ later, ∀ o', e.2 = .add o' → Offer.InRange o') :
    ∃ db oks, run H512 newDB h = .ok (db, oks) ∧
      execAll H H512 room ⟨db, 0⟩ (ws.map (fun w => (w, .byDigest d)) ++ (w, .byDigest d) :: later) =
        (⟨db, room⟩, ws.map (fun _ => .one (some o)) ++ .panic :: later.map (fun e => nothing e.2)) := by
  obtain ⟨hrun, _⟩ := run_new H H512 h hs
  have hfound : ∀ w' ∈ w :: ws, SqlOffer.getByDigest H w'.order w'.off w'.now (encode H512 (stored (h.map (·.2)))) d = .ok (some o) := by
    intro w' hw'
    obtain ⟨h1, h2, h3, h4⟩ := hw w' hw'
    obtain ⟨db, oks, r, e1, e2, e3⟩ := C26_by_digest H H512 w'.order h1 h hs d w'.off w'.now h2
    rw [hrun] at e1
    simp only [Res.ok.injEq, Prod.mk.injEq] at e1
    rw [e1.1, e2, (e3 o).2 ⟨ho, hd, h3, h4⟩]
  refine ⟨_, _, hrun, ?_⟩
  rw [execAll_append, digests_room ws 0 (fun w' hw' => hfound w' (by simp [hw'])) (by omega)]
  have e1 := digest_last (H := H) (H512 := H512) (room := room) (s := ⟨encode H512 (stored (h.map (·.2))), 0 + ws.length⟩) (by dsimp only; omega) w d (hfound w (by simp))
  have e2 := execAll_full (H := H) (H512 := H512) (room := room) (s := ⟨encode H512 (stored (h.map (·.2))), room⟩) (Nat.le_refl _) later (by
    intro e he o' ho'
    have hr := hl e he o' ho'
    obtain ⟨d', hd', _⟩ := OfferMgr.digest_ok H512 hr
    obtain ⟨⟨p, hp, _⟩, _⟩ := hr
    exact ⟨⟨d', hd'⟩, by simp [hp]⟩)
  simp only [execAll, e1, e2]

theorem selectGo_held {H : Hash} {room : Nat} {db : DB} {max : Int} : ∀ (rows : List OfferRow) (held : Nat) (res : List CidOffer) (find : Bool),
    held ≤ (selectGo H room db max rows held res find).1 + 1
  | [], held, res, find => by simp only [selectGo]; omega
  | r :: rows, held, res, find => by
    simp only [selectGo]
    split
    · dsimp only; omega
    · split
      · dsimp only; omega
      · split
        · dsimp only; omega
        · split
          · dsimp only; omega
          · exact selectGo_held rows held _ _

theorem select_held (H : Hash) (room : Nat) (s : Store) (max : Int) (rows : List OfferRow) : s.held ≤ (select H room s max rows).1.held := by
  unfold select
  split
  · exact Nat.le_refl _
  · have := selectGo_held (H := H) (room := room) (db := s.db) (max := max) rows (s.held + 1) [] false
    dsimp only
    omega

/-- **C178**: no history of calls, whatever it finds and whether it crashes or not, makes the number of connections in use smaller: what is kept is kept until the process ends. -/
theorem C178_never_back {H H512 : Hash} {room : Nat} : ∀ (h : List (When × Op)) (s : Store), s.held ≤ (execAll H H512 room s h).1.held
  | [], s => Nat.le_refl _
  | (w, op) :: h, s => by
    have h1 : s.held ≤ (exec H H512 room s w op).1.held := by
      cases op with
      | add o =>
        simp only [exec, add]
        cases insertOffer H512 (fun _ => decide (room ≤ s.held)) s.db o <;> exact Nat.le_refl _
      | byCid c => exact select_held _ _ _ _ _
      | range a b max => exact select_held _ _ _ _ _
      | byDigest d =>
        simp only [exec, getByDigest]
        have := select_held H room s 1 (w.order (s.db.offers.filter (fun o => o.digest = hexEncode d && unexpired w.off w.now o.expiry)))
        generalize select H room s 1 (w.order (s.db.offers.filter (fun o => o.digest = hexEncode d && unexpired w.off w.now o.expiry))) = q at this
        split <;> exact this
    exact Nat.le_trans h1 (C178_never_back h _)

/-- **C178**: what a gateway sells.  The searches by digest that a gateway makes to answer a request for offers (`Model/Gateway`) keep one connection for every offer that
the answer holds. -/
theorem C178_sold {Sig : Type} (E : Gateway.Env Sig) (c : Gateway.Core Sig) (cid : Option Id) (room : Nat) :
    ∀ (ds : List (List Char)) (os : List Offer.SubOffer) (held : Nat), Gateway.offersByDigest E c cid ds = .ok os → held + ds.length + 1 ≤ room →
      os.length = ds.length ∧
      (execAll E.H E.H512 room ⟨c.db, held⟩ (ds.map (fun d => (⟨E.off, E.now, E.order⟩, .byDigest (Gateway.readDigest E d))))).1 = ⟨c.db, held + os.length⟩
  | [], os, held, h, _ => by
    simp only [Gateway.offersByDigest, Res.ok.injEq] at h
    subst h
    exact ⟨rfl, rfl⟩
  | d :: ds, os, held, h, hr => by
    simp only [Gateway.offersByDigest] at h
    cases hg : SqlOffer.getByDigest E.H E.order E.off E.now c.db (Gateway.readDigest E d) with
    | ok r =>
      rw [hg] at h
      cases r with
      | none => simp at h
      | some o =>
        cases cid with
        | none => simp at h
        | some id =>
          simp only [bind, Res.bind, pure] at h
          cases hrest : Gateway.offersByDigest E c (some id) ds with
          | ok os' =>
            rw [hrest] at h
            simp only [Res.ok.injEq] at h
            subst h
            simp only [List.length_cons] at hr
            obtain ⟨e1, e2⟩ := C178_sold E c (some id) room ds os' (held + 1) hrest (by omega)
            have e3 := exec_room (H := E.H) (H512 := E.H512) (room := room) (s := ⟨c.db, held⟩) (by dsimp only; omega) ⟨E.off, E.now, E.order⟩
              (.byDigest (Gateway.readDigest E d)) (by simp [ideal, hg, Out.ofOne])
            simp only [ideal, hg, Out.ofOne, kept] at e3
            refine ⟨by simp [e1], ?_⟩
            simp only [List.map_cons, execAll, e3, e2, List.length_cons]
            rw [show held + 1 + os'.length = held + (os'.length + 1) by omega]
          | err => rw [hrest] at h; cases h
          | panic => rw [hrest] at h; cases h
    | err => rw [hg] at h; simp at h
    | panic => rw [hg] at h; simp at h

/-- A clock that keeps UTC. -/
def exWhen (now : Int) : When := ⟨0, now, fun l => l⟩

/-- The digest of an offer under a hash that is the identity. -/
def exDigest : Bytes := match Offer.digest (fun b => b) Offer.exOffer with
  | .ok d => d
  | _ => []

/-- Two offers are added; one is found by its digest, a listing comes to its limit, and both are found by their content. -/
def exCalls : List (When × Op) :=
  [(exWhen 1000, .add Offer.exOffer), (exWhen 1000, .add { Offer.exOffer with price := 6 }), (exWhen 1001, .byDigest exDigest),
    (exWhen 1002, .range (Merkle.exId 1) (Merkle.exId 3) 1), (exWhen 1003, .byCid (Merkle.exId 2))]

theorem exCalls_sane : Sane Merkle.toyHash (fun b => b) (addsOf exCalls) := by
  refine ⟨?_, fun x _ y _ b b' _ _ e => e⟩
  intro o ho
  simp [addsOf, exCalls] at ho
  rcases ho with rfl | rfl
  · exact Offer.exOffer_built
  · exact exOffer6_built

/-- A call keeps at most one connection. -/
theorem keptAll_le : ∀ (h : List (When × Op)) (outs : List Out), keptAll h outs ≤ h.length
  | [], outs => by cases outs <;> exact Nat.le_refl _
  | e :: h, [] => Nat.zero_le _
  | e :: h, out :: outs => by
    have : kept e.2 out ≤ 1 := by
      unfold kept
      split
      · exact Nat.le_refl _
      · split <;> omega
      · omega
    have ih := keptAll_le h outs
    simp only [keptAll, List.length_cons]
    omega

example := C178_exact (room := 7) exCalls exCalls_sane (by
    intro e he
    simp only [exCalls, List.mem_cons, List.not_mem_nil, or_false] at he
    rcases he with rfl | rfl | rfl | rfl | rfl <;> exact fun l => .refl _)
  (by have := keptAll_le exCalls (idealAll Merkle.toyHash (fun b => b) newDB exCalls).2; simp only [exCalls, List.length_cons, List.length_nil] at this ⊢; omega)

/-- None is kept. -/
example := C178_given_back_partial (H := Merkle.toyHash) (H512 := fun b => b) (room := 2) (by omega)
  [(exWhen 1000, .add Offer.exOffer), (exWhen 1003, .byCid (Merkle.exId 2)), (exWhen 1003, .range (Merkle.exId 1) (Merkle.exId 3) 0)]
  ⟨fun o ho => by simp [addsOf] at ho; subst ho; exact Offer.exOffer_built, fun x _ y _ b b' _ _ e => e⟩
  (by
    intro e he
    simp only [List.mem_cons, List.not_mem_nil, or_false] at he
    rcases he with rfl | rfl | rfl <;> exact fun l => .refl _)
  (by
    intro e he
    simp only [List.mem_cons, List.not_mem_nil, or_false] at he
    rcases he with rfl | rfl | rfl <;> simp)

/-- With four connections, three searches find the offer, the fourth crashes, and then the content cannot be found. -/
example := C178_exhausted_refuted (H := Merkle.toyHash) (H512 := fun b => b) 4 exAdds exAdds_sane Offer.exOffer exDigest (by decide +kernel) (by decide +kernel)
  [exWhen 1000, exWhen 1001, exWhen 1002] (exWhen 1003) rfl
  (by
    intro w hw
    simp only [List.mem_cons, List.not_mem_nil, or_false] at hw
    rcases hw with rfl | rfl | rfl | rfl <;> exact ⟨fun l => .refl _, by decide, by decide, by decide⟩)
  [(exWhen 1004, .byCid (Merkle.exId 2)), (exWhen 1005, .add { Offer.exOffer with price := 7 })] (by
    intro e he o ho
    simp only [List.mem_cons, List.not_mem_nil, or_false] at he
    rcases he with rfl | rfl
    · cases ho
    · cases ho
      obtain ⟨⟨h1, h2, _, h4, h5, h6⟩, _⟩ := Offer.exOffer_built
      exact ⟨h1, h2, by decide, h4, h5, h6⟩)

/-- The one search of the example gateway that sells its offer keeps a connection. -/
example := C178_sold Gateway.exEnv Gateway.exCore (some (Merkle.exId 2)) 5 [Gateway.exDigest] _ 2
  (Gateway.offersByDigest_eq Gateway.exEnv Gateway.exCore (Merkle.exId 2) [Gateway.exDigest] [Codecs.exSingle] Gateway.exCore_byDigest) (by simp)

end FcRetrieval.SqlOffer.Conn
