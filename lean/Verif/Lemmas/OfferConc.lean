import Verif.Spec.OfferConc
import Verif.Lemmas.OfferMgrHist
/-! Helper lemmas: an invariant of interleaved calls on the offer storage. -/

set_option linter.unusedSimpArgs false

namespace FcRetrieval.OfferMgr.Conc
open FcRetrieval.Ids (Id Proper)
open FcRetrieval.Merkle (Hash)
open FcRetrieval.Offer (CidOffer terms InRange)

theorem mem_adding {o : CidOffer} : ∀ {calls : List Call}, o ∈ adding calls ↔ Call.add o ∈ calls
  | [] => by simp [adding]
  | .add o' :: cs => by simp [adding, mem_adding (calls := cs)]
  | .get c :: cs => by simp [adding, mem_adding (calls := cs)]
  | .byDigest d :: cs => by simp [adding, mem_adding (calls := cs)]

abbrev keysOf (o : CidOffer) : List Key := Ids.mapToString o.cids

/-- CIDs still to be done. -/
def pend : Pc → List Key
  | .next _ rest => rest
  | .create _ k rest => k :: rest
  | .write _ k _ rest => k :: rest
  | _ => []

def Present (s : Shared) (k : Key) (d : Bytes) : Prop :=
  ∃ a, mget s.cidMap k = some a ∧ (mget (s.dmap a) d).isSome

def Covered (H512 : Hash) (s : Sys) (d : Bytes) (k : Key) : Prop :=
  Present s.shared k d ∨ ∃ (j : Nat) (o : CidOffer) (pc : Pc), s.threads[j]? = some (.add o, pc) ∧ digestOf H512 o = .ok d ∧ k ∈ pend pc

def Live (H512 : Hash) (calls : List Call) (d : Bytes) : Prop := ∃ u, Call.add u ∈ calls ∧ digestOf H512 u = .ok d

/-- What is known of a call where it stands. -/
def ThreadOk (H512 : Hash) (calls : List Call) (s : Sys) : Call → Pc → Prop
  | .add _, .start => True
  | .add o, .check _ d => digestOf H512 o = .ok d
  | .add o, .fresh d => digestOf H512 o = .ok d
  | .add o, .next d rest => digestOf H512 o = .ok d ∧ (∀ k ∈ rest, k ∈ keysOf o) ∧ ∀ k ∈ keysOf o, Present s.shared k d ∨ k ∈ rest
  | .add o, .create d k rest => digestOf H512 o = .ok d ∧ (∀ x ∈ k :: rest, x ∈ keysOf o) ∧
      (∀ x ∈ keysOf o, Present s.shared x d ∨ x ∈ k :: rest) ∧ mget s.shared.cidMap k = none
  | .add o, .write d k a rest => digestOf H512 o = .ok d ∧ (∀ x ∈ k :: rest, x ∈ keysOf o) ∧
      (∀ x ∈ keysOf o, Present s.shared x d ∨ x ∈ k :: rest) ∧ mget s.shared.cidMap k = some a
  | .add o, .done (.added true) => ∃ d, digestOf H512 o = .ok d ∧ ∀ k ∈ keysOf o, Covered H512 s d k
  | .add _, .done _ => True
  | .get _, .start => True
  | .get _, .scan _ => True
  | .get _, .wait todo _ => ∀ e ∈ todo, e.2 ∈ mkeys s.shared.cidMap ∧ ¬ Live H512 calls e.1
  | .get _, .clean todo _ => ∀ e ∈ todo, e.2 ∈ mkeys s.shared.cidMap ∧ ¬ Live H512 calls e.1
  | .get _, .done _ => True
  | _, _ => False

structure Inv (H512 : Hash) (s0 : Shared) (acc : List CidOffer) (calls : List Call) (s : Sys) : Prop where
  calls_eq : s.threads.map (·.1) = calls
  keys0 : ∀ k ∈ mkeys s0.cidMap, k ∈ mkeys s.shared.cidMap
  addr : ∀ k a, mget s.shared.cidMap k = some a → a < s.shared.heap.length
  nodup : ∀ a, (mkeys (s.shared.dmap a)).Nodup
  good : ∀ a d o, mget (s.shared.dmap a) d = some o → o ∈ acc ++ adding calls ∧ digestOf H512 o = .ok d
  dead : ∀ a d o, mget (s.shared.dmap a) d = some o → ¬ Live H512 calls d → ∀ k ∈ keysOf o, k ∈ mkeys s.shared.cidMap
  live : ∀ a d o, mget (s.shared.dmap a) d = some o → Live H512 calls d → ∀ k ∈ keysOf o, Covered H512 s d k
  unlocked : s.shared.unlocked = 0
  thr : ∀ (i : Nat) (call : Call) (pc : Pc), s.threads[i]? = some (call, pc) → ThreadOk H512 calls s call pc

theorem dmap_set (s : Shared) (a : Nat) (v : DigestMap CidOffer) (b : Nat) :
    Shared.dmap { s with heap := s.heap.set a v } b = if a = b ∧ a < s.heap.length then v else s.dmap b := by
  unfold Shared.dmap
  simp only [List.getElem?_set]
  by_cases h : a = b
  · subst h
    by_cases h2 : a < s.heap.length
    · simp [h2]
    · simp [h2, List.getElem?_eq_none (Nat.le_of_not_lt h2)]
  · simp [h]

theorem dmap_append (s : Shared) (m : List (Key × Nat)) (b : Nat) :
    Shared.dmap { s with cidMap := m, heap := s.heap ++ [[]] } b = s.dmap b := by
  unfold Shared.dmap
  simp only [List.getElem?_append]
  split
  · rfl
  · rename_i h
    rw [List.getElem?_eq_none (Nat.le_of_not_lt h)]
    cases hh : b - s.heap.length <;> simp

theorem mkeys_of_mget {κ ν : Type} [DecidableEq κ] {m : List (κ × ν)} {k : κ} {v : ν} (h : mget m k = some v) : k ∈ mkeys m := by
  rw [← mget_isSome_iff, h]; rfl

/-- Moving call `i` keeps the invariant if the shared state only grows where it matters. -/
theorem inv_move {H512 : Hash} {s0 : Shared} {acc : List CidOffer} {calls : List Call} {s : Sys} (h : Inv H512 s0 acc calls s)
    {i : Nat} {call : Call} {pc pc' : Pc} {sh : Shared} (hi : s.threads[i]? = some (call, pc))
    (F1 : ∀ k a, mget s.shared.cidMap k = some a → mget sh.cidMap k = some a)
    (F2 : ∀ k d, Live H512 calls d → Present s.shared k d → Present sh k d)
    (F3 : ∀ o d, call = .add o → digestOf H512 o = .ok d → ∀ k ∈ pend pc, k ∈ pend pc' ∨ Present sh k d)
    (F4 : ∀ j o d k rest, j ≠ i → s.threads[j]? = some (.add o, .create d k rest) → mget sh.cidMap k = none)
    (haddr : ∀ k a, mget sh.cidMap k = some a → a < sh.heap.length)
    (hnodup : ∀ a, (mkeys (sh.dmap a)).Nodup)
    (hgood : ∀ a d o, mget (sh.dmap a) d = some o → o ∈ acc ++ adding calls ∧ digestOf H512 o = .ok d)
    (hdead : ∀ a d o, mget (sh.dmap a) d = some o → ¬ Live H512 calls d → ∀ k ∈ keysOf o, k ∈ mkeys sh.cidMap)
    (hlive : ∀ a d o, mget (sh.dmap a) d = some o → Live H512 calls d →
      (∃ a' o', mget (s.shared.dmap a') d = some o' ∧ keysOf o' = keysOf o) ∨
        ∀ k ∈ keysOf o, Covered H512 ⟨sh, s.threads.set i (call, pc')⟩ d k)
    (hunl : sh.unlocked = 0)
    (hthr : (∀ d k, Live H512 calls d → Covered H512 s d k → Covered H512 ⟨sh, s.threads.set i (call, pc')⟩ d k) →
      ThreadOk H512 calls ⟨sh, s.threads.set i (call, pc')⟩ call pc') :
    Inv H512 s0 acc calls ⟨sh, s.threads.set i (call, pc')⟩ := by
  have hlt : i < s.threads.length := (List.getElem?_eq_some_iff.1 hi).1
  have hkeys : ∀ k ∈ mkeys s.shared.cidMap, k ∈ mkeys sh.cidMap := by
    intro k hk
    obtain ⟨a, ha⟩ := Option.isSome_iff_exists.1 ((mget_isSome_iff _ _).2 hk)
    exact mkeys_of_mget (F1 k a ha)
  have hcov : ∀ d k, Live H512 calls d → Covered H512 s d k → Covered H512 ⟨sh, s.threads.set i (call, pc')⟩ d k := by
    intro d k hd hc
    rcases hc with hp | ⟨j, o, pcj, h1, h2, h3⟩
    · exact Or.inl (F2 k d hd hp)
    · by_cases hj : j = i
      · subst hj
        rw [hi] at h1
        injection h1 with h1
        injection h1 with e1 e2
        subst e1 e2
        rcases F3 o d rfl h2 k h3 with h4 | h4
        · exact Or.inr ⟨j, o, pc', by simp [hlt], h2, h4⟩
        · exact Or.inl h4
      · exact Or.inr ⟨j, o, pcj, by rw [List.getElem?_set_ne (Ne.symm hj)]; exact h1, h2, h3⟩
  refine ⟨?_, fun k hk => hkeys k (h.keys0 k hk), haddr, hnodup, hgood, hdead, ?_, hunl, ?_⟩
  · rw [List.map_set]
    have := h.calls_eq
    rw [← this]
    apply List.ext_getElem?
    intro n
    rw [List.getElem?_set]
    split
    · rename_i e
      subst e
      have := (List.getElem?_eq_some_iff.1 hi).2
      simp [hlt, this]
    · rfl
  · intro a d o ho hd k hk
    rcases hlive a d o ho hd with ⟨a', o', h1, h2⟩ | h1
    · exact hcov d k hd (h.live a' d o' h1 hd k (h2 ▸ hk))
    · exact h1 k hk
  · intro j callj pcj hj
    by_cases hji : j = i
    · subst hji
      simp [hlt] at hj
      obtain ⟨e1, e2⟩ := hj
      subst e1 e2
      exact hthr hcov
    · simp only at hj
      rw [List.getElem?_set_ne (Ne.symm hji)] at hj
      have hok := h.thr j callj pcj hj
      have hlv : ∀ o d, callj = .add o → digestOf H512 o = .ok d → Live H512 calls d := by
        intro o d e1 e2
        refine ⟨o, ?_, e2⟩
        rw [← h.calls_eq, List.mem_map]
        exact ⟨_, List.mem_of_getElem? hj, e1⟩
      cases callj with
      | add o =>
        cases pcj with
        | start => trivial
        | check a d => exact hok
        | fresh d => exact hok
        | next d rest =>
          obtain ⟨a1, a2, a3⟩ := hok
          exact ⟨a1, a2, fun k hk => (a3 k hk).imp (F2 k d (hlv o d rfl a1)) id⟩
        | create d k rest =>
          obtain ⟨a1, a2, a3, a4⟩ := hok
          exact ⟨a1, a2, fun k hk => (a3 k hk).imp (F2 k d (hlv o d rfl a1)) id, F4 j o d k rest hji hj⟩
        | write d k a rest =>
          obtain ⟨a1, a2, a3, a4⟩ := hok
          exact ⟨a1, a2, fun k hk => (a3 k hk).imp (F2 k d (hlv o d rfl a1)) id, F1 _ _ a4⟩
        | done out =>
          cases out with
          | added ok =>
            cases ok with
            | true =>
              obtain ⟨d, a1, a2⟩ := hok
              exact ⟨d, a1, fun k hk => hcov d k (hlv o d rfl a1) (a2 k hk)⟩
            | false => trivial
          | found _ => trivial
          | one _ => trivial
        | _ => exact hok.elim
      | get c =>
        cases pcj with
        | start => trivial
        | scan a => trivial
        | wait todo res => exact fun e he => ⟨hkeys _ (hok e he).1, (hok e he).2⟩
        | clean todo res => exact fun e he => ⟨hkeys _ (hok e he).1, (hok e he).2⟩
        | done out => trivial
        | _ => exact hok.elim
      | byDigest d => cases pcj <;> exact hok.elim

/-- The common case: nothing shared changes but the count of readers. -/
theorem inv_pc {H512 : Hash} {s0 : Shared} {acc : List CidOffer} {calls : List Call} {s : Sys} (h : Inv H512 s0 acc calls s)
    {i : Nat} {call : Call} {pc pc' : Pc} {sh : Shared} (hi : s.threads[i]? = some (call, pc))
    (e1 : sh.cidMap = s.shared.cidMap) (e2 : sh.heap = s.shared.heap) (e3 : sh.unlocked = s.shared.unlocked)
    (F3 : ∀ k ∈ pend pc, k ∈ pend pc')
    (hthr : (∀ d k, Live H512 calls d → Covered H512 s d k → Covered H512 ⟨sh, s.threads.set i (call, pc')⟩ d k) →
      ThreadOk H512 calls ⟨sh, s.threads.set i (call, pc')⟩ call pc') :
    Inv H512 s0 acc calls ⟨sh, s.threads.set i (call, pc')⟩ := by
  have ed : ∀ a, sh.dmap a = s.shared.dmap a := by intro a; unfold Shared.dmap; rw [e2]
  refine inv_move h hi (by rw [e1]; exact fun _ _ h => h) ?_ (fun o d _ _ k hk => Or.inl (F3 k hk)) ?_ ?_ ?_ ?_ ?_ ?_ (by rw [e3]; exact h.unlocked) hthr
  · rintro k d _ ⟨a, h1, h2⟩
    exact ⟨a, by rw [e1]; exact h1, by rw [ed]; exact h2⟩
  · intro j o d k rest _ hj
    rw [e1]
    exact (h.thr j _ _ hj).2.2.2
  · rw [e1, e2]; exact h.addr
  · intro a; rw [ed]; exact h.nodup a
  · intro a; rw [ed]; exact h.good a
  · intro a; rw [ed, e1]; exact h.dead a
  · intro a d o ho hd
    rw [ed] at ho
    exact Or.inl ⟨a, o, ho, rfl⟩

theorem digestOf_ok {H512 : Hash} {o : CidOffer} {d : Bytes} : digestOf H512 o = .ok d ↔ Offer.digest H512 o = .ok d := by
  unfold digestOf
  split <;> simp_all

theorem same_terms {H512 : Hash} {U : List CidOffer} (hU : ∀ o ∈ U, InRange o) (hno : NoCollision H512 U) {o o' : CidOffer} {d : Bytes}
    (ho : o ∈ U) (ho' : o' ∈ U) (h1 : digestOf H512 o = .ok d) (h2 : digestOf H512 o' = .ok d) : terms o = terms o' :=
  (Offer.C16_digest_identifies H512 o o' (hU o ho) (hU o' ho') (hno o ho o' ho')).1
    (by rw [digestOf_ok.1 h1, digestOf_ok.1 h2])

theorem cids_of_terms {o o' : CidOffer} (h : terms o = terms o') : o.cids = o'.cids := by
  unfold terms at h
  simp only [Prod.mk.injEq] at h
  exact h.2.1

theorem removals_some {H512 : Hash} : ∀ {os : List CidOffer}, (∀ o ∈ os, ∃ d, digestOf H512 o = .ok d) →
    ∃ todo, removals H512 os = some todo ∧ ∀ e, e ∈ todo ↔ ∃ o ∈ os, digestOf H512 o = .ok e.1 ∧ e.2 ∈ keysOf o
  | [], _ => ⟨[], rfl, by simp⟩
  | o :: os, h => by
    obtain ⟨d, hd⟩ := h o (by simp)
    obtain ⟨todo, h1, h2⟩ := removals_some (os := os) (fun o ho => h o (by simp [ho]))
    refine ⟨(Ids.mapToString o.cids).map (fun k => (d, k)) ++ todo, by simp only [removals, hd, h1], ?_⟩
    rintro ⟨d', k⟩
    simp only [List.mem_append, List.mem_map, Prod.mk.injEq, h2, List.mem_cons, exists_eq_or_imp, hd, Except.ok.injEq]
    constructor
    · rintro (⟨k', h3, rfl, rfl⟩ | h3)
      · exact Or.inl ⟨rfl, h3⟩
      · exact Or.inr h3
    · rintro (⟨rfl, h3⟩ | h3)
      · exact Or.inl ⟨k, h3, rfl, rfl⟩
      · exact Or.inr h3

theorem mem_call {H512 : Hash} {s0 : Shared} {acc : List CidOffer} {calls : List Call} {s : Sys} (h : Inv H512 s0 acc calls s)
    {i : Nat} {call : Call} {pc : Pc} (hi : s.threads[i]? = some (call, pc)) : calls[i]? = some call := by
  rw [← h.calls_eq, List.getElem?_map, hi]; rfl

theorem inv_step {H512 : Hash} {order : DigestMap CidOffer → DigestMap CidOffer} (hord : ∀ dm, (order dm).Perm dm)
    {s0 : Shared} {acc : List CidOffer} {calls : List Call} {s : Sys}
    (hU : ∀ o ∈ acc ++ adding calls, InRange o) (hno : NoCollision H512 (acc ++ adding calls))
    (hap : NoSharedNew s0 calls) (h : Inv H512 s0 acc calls s) (e : Nat × Clock)
    (hexp : ∀ o, Call.add o ∈ calls → expired o e.2 = false) : Inv H512 s0 acc calls (sysStep H512 order s e) := by
  obtain ⟨i, t⟩ := e
  unfold sysStep
  cases hi : s.threads[i]? with
  | none => exact h
  | some cp =>
    obtain ⟨call, pc⟩ := cp
    have hok := h.thr i call pc hi
    have hcall := mem_call h hi
    have hmem : call ∈ calls := List.mem_of_getElem? hcall
    simp only [hi]
    cases call with
    | byDigest d => cases pc <;> exact hok.elim
    | add o =>
      have hoU : o ∈ acc ++ adding calls := List.mem_append.2 (Or.inr (mem_adding.2 hmem))
      have hlv : ∀ d, digestOf H512 o = .ok d → Live H512 calls d := fun d hd => ⟨o, hmem, hd⟩
      simp only [step]
      cases pc with
      | start =>
        simp only [addStep]
        cases hc : o.cids with
        | nil => exact inv_pc h hi rfl rfl rfl (by simp [pend]) (fun _ => trivial)
        | cons c cs =>
          obtain ⟨d, _, hd⟩ := digest_ok H512 (hU o hoU)
          simp only [hd]
          cases mget s.shared.cidMap (Ids.toStr c) with
          | some a => exact inv_pc h hi rfl rfl rfl (by simp [pend]) (fun _ => hd)
          | none => exact inv_pc h hi rfl rfl rfl (by simp [pend]) (fun _ => hd)
      | check a d =>
        simp only [addStep]
        split
        · rename_i hs
          refine inv_pc h hi rfl rfl rfl (by simp [pend]) (fun hcov => ⟨d, hok, fun k hk => ?_⟩)
          obtain ⟨o', ho'⟩ := Option.isSome_iff_exists.1 hs
          obtain ⟨g1, g2⟩ := h.good a d o' ho'
          have ht := same_terms hU hno g1 hoU g2 hok
          refine hcov d k (hlv d hok) (h.live a d o' ho' (hlv d hok) k ?_)
          unfold keysOf
          rw [cids_of_terms ht]
          exact hk
        · exact inv_pc h hi rfl rfl rfl (by simp [pend]) (fun _ => hok)
      | fresh d =>
        simp only [addStep]
        split
        · exact inv_pc h hi rfl rfl rfl (by simp [pend]) (fun _ => trivial)
        · exact inv_pc h hi rfl rfl rfl (by simp [pend]) (fun _ => ⟨hok, fun k hk => hk, fun k hk => Or.inr hk⟩)
      | next d rest =>
        obtain ⟨a1, a2, a3⟩ := hok
        cases rest with
        | nil =>
          simp only [addStep]
          refine inv_pc h hi rfl rfl rfl (by simp [pend]) (fun hcov => ⟨d, a1, fun k hk => ?_⟩)
          rcases a3 k hk with h1 | h1
          · exact hcov d k (hlv d a1) (Or.inl h1)
          · simp at h1
        | cons k rest =>
          simp only [addStep]
          cases hk : mget s.shared.cidMap k with
          | some a => exact inv_pc h hi rfl rfl rfl (by simp [pend]) (fun _ => ⟨a1, a2, a3, hk⟩)
          | none => exact inv_pc h hi rfl rfl rfl (by simp [pend]) (fun _ => ⟨a1, a2, a3, hk⟩)
      | create d k rest =>
        obtain ⟨a1, a2, a3, a4⟩ := hok
        simp only [addStep]
        by_cases hr : s.shared.readers > 0
        · rw [if_pos hr]
          exact inv_pc h hi rfl rfl rfl (by simp [pend]) (fun _ => ⟨a1, a2, a3, a4⟩)
        · rw [if_neg hr, if_neg (by rw [h.unlocked]; omega)]
          have F1 : ∀ k' a, mget s.shared.cidMap k' = some a → mget (mset s.shared.cidMap k s.shared.heap.length) k' = some a := by
            intro k' a ha
            rw [mget_mset_other]
            · exact ha
            · intro e; subst e; rw [a4] at ha; simp at ha
          have F2 : ∀ k' d', Present s.shared k' d' → Present { s.shared with cidMap := mset s.shared.cidMap k s.shared.heap.length, heap := s.shared.heap ++ [[]] } k' d' := by
            rintro k' d' ⟨a, h1, h2⟩
            exact ⟨a, F1 k' a h1, by rw [dmap_append]; exact h2⟩
          refine inv_move h hi F1 (fun k' d' _ => F2 k' d') (by intro o d _ _ k hk; exact Or.inl hk) ?_ ?_ ?_ ?_ ?_ ?_ h.unlocked ?_
          · intro j o' d' k' rest' hj hjt
            have hokj := h.thr j _ _ hjt
            simp only
            rw [mget_mset_other]
            · exact hokj.2.2.2
            · intro e
              subst e
              have hk1 := a2 k (by simp)
              have hk2 := hokj.2.1 k (by simp)
              unfold keysOf Ids.mapToString at hk1 hk2
              obtain ⟨c, hc1, hc2⟩ := List.mem_map.1 hk1
              obtain ⟨c', hc1', hc2'⟩ := List.mem_map.1 hk2
              have hoj := mem_call h hjt
              have hoU' : o' ∈ acc ++ adding calls := List.mem_append.2 (Or.inr (mem_adding.2 (List.mem_of_getElem? hoj)))
              have hcc : c = c' := (toStr_inj ((hU o hoU).2.1 c hc1) ((hU o' hoU').2.1 c' hc1')).1 (by rw [hc2, hc2'])
              subst hcc
              have := hap i j o o' hcall hoj (Ne.symm hj) c hc1 hc1'
              rw [hc2] at this
              have := h.keys0 k this
              rw [← mget_isSome_iff, a4] at this
              simp at this
          · intro k' a ha
            simp only at ha ⊢
            rw [mget_mset] at ha
            rw [List.length_append]
            split at ha
            · simp at ha; subst ha; simp
            · have := h.addr k' a ha; simp; omega
          · intro a; rw [dmap_append]; exact h.nodup a
          · intro a; rw [dmap_append]; exact h.good a
          · intro a d' o' ho' hd' k' hk'
            rw [dmap_append] at ho'
            exact (mem_mkeys_mset _ _ _ _).2 (Or.inr (h.dead a d' o' ho' hd' k' hk'))
          · intro a d' o' ho' hd'
            rw [dmap_append] at ho'
            exact Or.inl ⟨a, o', ho', rfl⟩
          · intro _
            exact ⟨a1, a2, fun x hx => (a3 x hx).imp (F2 x d) id, mget_mset_same _ _ _⟩
      | write d k a rest =>
        obtain ⟨a1, a2, a3, a4⟩ := hok
        have halt := h.addr k a a4
        simp only [addStep]
        have hdm : ∀ b, Shared.dmap { s.shared with heap := s.shared.heap.set a (mset (s.shared.dmap a) d o) } b =
            if a = b then mset (s.shared.dmap a) d o else s.shared.dmap b := by
          intro b; rw [dmap_set]; simp [halt]
        have hget : ∀ b d', mget (Shared.dmap { s.shared with heap := s.shared.heap.set a (mset (s.shared.dmap a) d o) } b) d' =
            if a = b ∧ d = d' then some o else mget (s.shared.dmap b) d' := by
          intro b d'
          rw [hdm]
          by_cases hb : a = b
          · subst hb
            rw [if_pos rfl, mget_mset]
            by_cases hd : d = d' <;> simp [hd]
          · simp [hb]
        have F2 : ∀ k' d', Present s.shared k' d' → Present { s.shared with heap := s.shared.heap.set a (mset (s.shared.dmap a) d o) } k' d' := by
          rintro k' d' ⟨b, h1, h2⟩
          refine ⟨b, h1, ?_⟩
          rw [hget]
          split
          · rfl
          · exact h2
        have hpk : Present { s.shared with heap := s.shared.heap.set a (mset (s.shared.dmap a) d o) } k d := by
          refine ⟨a, a4, ?_⟩
          rw [hget]; simp
        refine inv_move h hi (fun _ _ h => h) (fun k' d' _ => F2 k' d') ?_ ?_ ?_ ?_ ?_ ?_ ?_ h.unlocked ?_
        · intro o' d' e hd' x hx
          injection e with e
          subst e
          rw [a1] at hd'
          injection hd' with hd'
          subst hd'
          simp only [pend, List.mem_cons] at hx
          rcases hx with rfl | hx
          · exact Or.inr hpk
          · exact Or.inl hx
        · intro j o' d' k' rest' _ hjt
          exact (h.thr j _ _ hjt).2.2.2
        · intro k' b hb
          simp only [List.length_set]
          exact h.addr k' b hb
        · intro b
          rw [hdm]
          split
          · exact mset_nodup (h.nodup a) _ _
          · exact h.nodup b
        · intro b d' o' ho'
          rw [hget] at ho'
          split at ho'
          · rename_i hh
            injection ho' with ho'
            subst ho'
            rw [← hh.2]
            exact ⟨hoU, a1⟩
          · exact h.good b d' o' ho'
        · intro b d' o' ho' hd'
          rw [hget] at ho'
          split at ho'
          · rename_i hh
            exact absurd (hlv d a1) (by rw [hh.2]; exact hd')
          · exact h.dead b d' o' ho' hd'
        · intro b d' o' ho' hd'
          rw [hget] at ho'
          split at ho'
          · rename_i hh
            injection ho' with ho'
            subst ho'
            right
            rw [← hh.2]
            intro x hx
            rcases a3 x hx with h1 | h1
            · exact Or.inl (F2 x d h1)
            · rcases List.mem_cons.1 h1 with rfl | h1
              · exact Or.inl hpk
              · exact Or.inr ⟨i, o, .next d rest, by simp [(List.getElem?_eq_some_iff.1 hi).1], a1, h1⟩
          · exact Or.inl ⟨b, o', ho', rfl⟩
        · intro _
          refine ⟨a1, fun x hx => a2 x (by simp [hx]), fun x hx => ?_⟩
          rcases a3 x hx with h1 | h1
          · exact Or.inl (F2 x d h1)
          · rcases List.mem_cons.1 h1 with rfl | h1
            · exact Or.inl hpk
            · exact Or.inr h1
      | done out =>
        simp only [addStep]
        refine inv_pc h hi rfl rfl rfl (by simp [pend]) (fun hcov => ?_)
        cases out with
        | added ok =>
          cases ok with
          | true =>
            obtain ⟨d, b1, b2⟩ := hok
            exact ⟨d, b1, fun k hk => hcov d k (hlv d b1) (b2 k hk)⟩
          | false => trivial
        | found _ => trivial
        | one _ => trivial
      | _ => exact hok.elim
    | get c =>
      simp only [step]
      cases pc with
      | start =>
        simp only [getStep]
        cases mget s.shared.cidMap (Ids.toStr c) with
        | none => exact inv_pc h hi rfl rfl rfl (by simp [pend]) (fun _ => trivial)
        | some a => exact inv_pc h hi rfl rfl rfl (by simp [pend]) (fun _ => trivial)
      | scan a =>
        simp only [getStep]
        have hall : ∀ o ∈ (order (s.shared.dmap a)).map (·.2), ∃ d, mget (s.shared.dmap a) d = some o ∧ digestOf H512 o = .ok d := by
          intro o ho
          obtain ⟨⟨d, o'⟩, h1, h2⟩ := List.mem_map.1 ho
          simp only at h2
          subst h2
          have := (mem_mget (h.nodup a)).1 ((hord _).mem_iff.1 h1)
          exact ⟨d, this, (h.good a d o' this).2⟩
        obtain ⟨todo, h1, h2⟩ := removals_some (H512 := H512) (os := ((order (s.shared.dmap a)).map (·.2)).filter (fun o => expired o t))
          (fun o ho => by obtain ⟨d, _, hd⟩ := hall o (List.mem_filter.1 ho).1; exact ⟨d, hd⟩)
        rw [h1]
        refine inv_pc h hi rfl rfl rfl (by simp [pend]) (fun _ => ?_)
        rintro ⟨d, k⟩ he
        obtain ⟨o, ho1, ho2, ho3⟩ := (h2 _).1 he
        simp only at ho2 ho3
        obtain ⟨ho1, hox⟩ := List.mem_filter.1 ho1
        obtain ⟨d', g1, g2⟩ := hall o ho1
        rw [ho2] at g2
        injection g2 with g2
        subst g2
        have hndead : ¬ Live H512 calls d := by
          rintro ⟨u, hu1, hu2⟩
          have hT := same_terms hU hno (h.good a d o g1).1 (List.mem_append.2 (Or.inr (mem_adding.2 hu1))) ho2 hu2
          have := hexp u hu1
          rw [← expired_terms hT, hox] at this
          simp at this
        exact ⟨h.dead a d o g1 hndead k ho3, hndead⟩
      | wait todo res =>
        simp only [getStep]
        exact inv_pc h hi rfl rfl rfl (by simp [pend]) (fun _ => hok)
      | clean todo res =>
        cases todo with
        | nil =>
          simp only [getStep]
          exact inv_pc h hi rfl rfl rfl (by simp [pend]) (fun _ => trivial)
        | cons e todo =>
          obtain ⟨d, k⟩ := e
          obtain ⟨hk, hd⟩ := hok (d, k) (by simp)
          obtain ⟨a, ha⟩ := Option.isSome_iff_exists.1 ((mget_isSome_iff _ _).2 hk)
          simp only at ha
          simp only [getStep, ha]
          have halt := h.addr k a ha
          have hdm : ∀ b, Shared.dmap { s.shared with heap := s.shared.heap.set a (mdel (s.shared.dmap a) d) } b =
              if a = b then mdel (s.shared.dmap a) d else s.shared.dmap b := by
            intro b; rw [dmap_set]; simp [halt]
          have hget : ∀ b d', mget (Shared.dmap { s.shared with heap := s.shared.heap.set a (mdel (s.shared.dmap a) d) } b) d' =
              if a = b ∧ d = d' then none else mget (s.shared.dmap b) d' := by
            intro b d'
            rw [hdm]
            by_cases hb : a = b
            · subst hb
              rw [if_pos rfl, mget_mdel]
              by_cases hd : d = d' <;> simp [hd]
            · simp [hb]
          have hback : ∀ b d' o', mget (Shared.dmap { s.shared with heap := s.shared.heap.set a (mdel (s.shared.dmap a) d) } b) d' = some o' →
              mget (s.shared.dmap b) d' = some o' := by
            intro b d' o' ho'
            rw [hget] at ho'
            split at ho'
            · simp at ho'
            · exact ho'
          refine inv_move h hi (fun _ _ h => h) ?_ ?_ ?_ ?_ ?_ ?_ ?_ ?_ h.unlocked ?_
          · rintro k' d' hl ⟨b, h1, h2⟩
            refine ⟨b, h1, ?_⟩
            rw [hget, if_neg]
            · exact h2
            · rintro ⟨_, rfl⟩
              exact hd hl
          · intro o d e; simp at e
          · intro j o' d' k' rest' _ hjt
            exact (h.thr j _ _ hjt).2.2.2
          · intro k' b hb
            simp only [List.length_set]
            exact h.addr k' b hb
          · intro b
            rw [hdm]
            split
            · exact mdel_nodup (h.nodup a) _
            · exact h.nodup b
          · intro b d' o' ho'
            exact h.good b d' o' (hback b d' o' ho')
          · intro b d' o' ho'
            exact h.dead b d' o' (hback b d' o' ho')
          · intro b d' o' ho' _
            exact Or.inl ⟨b, o', hback b d' o' ho', rfl⟩
          · intro _ e he
            exact hok e (by simp [he])
      | done out =>
        simp only [getStep]
        exact inv_pc h hi rfl rfl rfl (by simp [pend]) (fun _ => trivial)
      | _ => exact hok.elim

theorem inv_run {H512 : Hash} {order : DigestMap CidOffer → DigestMap CidOffer} (hord : ∀ dm, (order dm).Perm dm)
    {s0 : Shared} {acc : List CidOffer} {calls : List Call}
    (hU : ∀ o ∈ acc ++ adding calls, InRange o) (hno : NoCollision H512 (acc ++ adding calls)) (hap : NoSharedNew s0 calls) :
    ∀ (sched : List (Nat × Clock)) (s : Sys), Inv H512 s0 acc calls s →
      (∀ o, Call.add o ∈ calls → ∀ e ∈ sched, expired o e.2 = false) → Inv H512 s0 acc calls (sysRun H512 order s sched)
  | [], s, h, _ => h
  | e :: sched, s, h, hexp =>
    inv_run hord hU hno hap sched _ (inv_step hord hU hno hap h e (fun o ho => hexp o ho e (by simp)))
      (fun o ho e he => hexp o ho e (by simp [he]))

theorem inv_begin {H512 : Hash} {s0 : Shared} {acc : List CidOffer} {calls : List Call} (h : Rest H512 s0 acc)
    (hcalls : ∀ d, Call.byDigest d ∉ calls) : Inv H512 s0 acc calls (begin_ s0 calls) := by
  refine ⟨?_, fun k hk => hk, h.addr, h.nodup, ?_, ?_, ?_, h.unlocked, ?_⟩
  · simp [begin_, Function.comp_def]
  · intro a d o ho
    exact ⟨List.mem_append.2 (Or.inl (h.good a d o ho).1), (h.good a d o ho).2⟩
  · intro a d o ho _ k hk
    obtain ⟨c, h1, h2⟩ := List.mem_map.1 hk
    obtain ⟨a', h3, _⟩ := h.everywhere a d o ho c h1
    rw [h2] at h3
    exact mkeys_of_mget h3
  · intro a d o ho _ k hk
    obtain ⟨c, h1, h2⟩ := List.mem_map.1 hk
    obtain ⟨a', h3, h4⟩ := h.everywhere a d o ho c h1
    rw [h2] at h3
    exact Or.inl ⟨a', h3, h4⟩
  · intro i call pc hi
    simp only [begin_, List.getElem?_map, Option.map_eq_some_iff] at hi
    obtain ⟨c, h1, h2⟩ := hi
    injection h2 with e1 e2
    subst e1 e2
    cases c with
    | add o => trivial
    | get c => trivial
    | byDigest d => exact absurd (List.mem_of_getElem? h1) (hcalls d)

end FcRetrieval.OfferMgr.Conc
