import Verif.Props.Restart
import Verif.Model.SharedDisk
/-!
# C196: gateways that run on one machine
-/
set_option linter.unusedSimpArgs false

namespace FcRetrieval.SharedDisk
open FcRetrieval.Merkle (Hash)
open FcRetrieval.Ids (Id Proper position)
open FcRetrieval.Offer (CidOffer InRange Built terms)
open FcRetrieval.Restart (Boot Disk dbFile down freshDisk file_name Boot.name)
open FcRetrieval.SqlOffer (OfferRow DB newDB stored Sane)
open FcRetrieval.Gateway (res_ok_of_bind)

/-- The offers that were added at gateways of this name. -/
def addedUnder (n : String) (h : List (Boot × CidOffer)) : List CidOffer := (h.filter (fun e => decide (e.1.name = n))).map (·.2)

theorem insert_total (H512 : Hash) {o : CidOffer} (ho : InRange o) (db : DB) : ∃ r, SqlOffer.insertOffer H512 (fun _ => false) db o = .ok r := by
  obtain ⟨d, hd, -⟩ := OfferMgr.digest_ok H512 ho
  obtain ⟨⟨p, hp, -⟩, -⟩ := ho
  unfold SqlOffer.insertOffer
  rw [hd]
  show ∃ r, (match o.providerID with | none => _ | some p => _ : Res (DB × Bool)) = .ok r
  rw [hp]
  dsimp only
  split
  · exact ⟨_, rfl⟩
  · exact ⟨_, rfl⟩

/-- Each file holds what the gateways of its name were given. -/
theorem adds_runs (H512 : Hash) : ∀ (h : List (Boot × CidOffer)) (disk : Disk), (∀ e ∈ h, InRange e.2) →
    ∃ disk', adds H512 disk h = .ok disk' ∧
      ∀ b : Boot, ∃ oks, SqlOffer.run H512 (disk (dbFile b)) ((addedUnder b.name h).map (SqlOffer.Kind.group, ·)) = .ok (disk' (dbFile b), oks) := by
  intro h
  induction h with
  | nil => intro disk _; exact ⟨disk, rfl, fun b => ⟨[], rfl⟩⟩
  | cons e h ih =>
    intro disk hr
    obtain ⟨c, o⟩ := e
    obtain ⟨⟨db, ok⟩, hi⟩ := insert_total H512 (hr (c, o) (by simp)) (disk (dbFile c))
    obtain ⟨disk', h1, h2⟩ := ih (down disk c db) (fun e he => hr e (by simp [he]))
    refine ⟨disk', ?_, fun b => ?_⟩
    · rw [adds, add, hi]
      exact h1
    · obtain ⟨oks, h2⟩ := h2 b
      by_cases hn : c.name = b.name
      · have hf : dbFile b = dbFile c := file_name.2 hn.symm
        refine ⟨ok :: oks, ?_⟩
        have e : addedUnder b.name ((c, o) :: h) = o :: addedUnder b.name h := by simp [addedUnder, hn]
        rw [e, List.map_cons, SqlOffer.run]
        simp only [SqlOffer.addGroup]
        rw [hf, hi]
        have h2' : SqlOffer.run H512 db ((addedUnder b.name h).map (SqlOffer.Kind.group, ·)) = .ok (disk' (dbFile b), oks) := by
          rw [← h2]; unfold down; rw [if_pos hf]
        show (SqlOffer.run H512 db ((addedUnder b.name h).map (SqlOffer.Kind.group, ·)) >>= fun r => _) = _
        rw [h2', hf]
        rfl
      · have hf : dbFile b ≠ dbFile c := fun hf => hn (file_name.1 hf).symm
        refine ⟨oks, ?_⟩
        have e : addedUnder b.name ((c, o) :: h) = addedUnder b.name h := by simp [addedUnder, hn]
        rw [e, ← h2]
        unfold down
        rw [if_neg hf]

theorem adds_kept (H H512 : Hash) (h : List (Boot × CidOffer)) (hs : Sane H H512 (h.map (·.2))) (b : Boot) :
    ∃ disk oks, adds H512 freshDisk h = .ok disk ∧
      SqlOffer.run H512 newDB ((addedUnder b.name h).map (SqlOffer.Kind.group, ·)) = .ok (disk (dbFile b), oks) ∧
      ((addedUnder b.name h).map (SqlOffer.Kind.group, ·)).map (·.2) = addedUnder b.name h ∧
      Sane H H512 (((addedUnder b.name h).map (SqlOffer.Kind.group, ·)).map (·.2)) := by
  obtain ⟨disk, h1, h2⟩ := adds_runs H512 h freshDisk (fun e he => (hs.1 e.2 (List.mem_map_of_mem he)).1)
  obtain ⟨oks, h2⟩ := h2 b
  have hsub : ∀ o ∈ addedUnder b.name h, o ∈ h.map (·.2) := by
    intro o ho
    obtain ⟨e, he, rfl⟩ := List.mem_map.1 ho
    exact List.mem_map_of_mem (List.mem_filter.1 he).1
  have hm : ((addedUnder b.name h).map (SqlOffer.Kind.group, ·)).map (·.2) = addedUnder b.name h := by simp [Function.comp_def]
  refine ⟨disk, oks, h1, h2, hm, ?_⟩
  rw [hm]
  exact ⟨fun o ho => hs.1 o (hsub o ho), fun x hx y hy => hs.2 x (hsub x hx) y (hsub y hy)⟩

/-- **C196**, exactly: gateways run on a machine and are given any offers in any order.  A gateway then answers a lookup with the offers, on sale and for the
content, that gateways *of its name* were given: the name is that of the container, if it has one, and else that of the machine. -/
theorem C196_lookup (H H512 : Hash) (order : List OfferRow → List OfferRow) (hord : ∀ l, (order l).Perm l) (h : List (Boot × CidOffer)) (hs : Sane H H512 (h.map (·.2)))
    (b : Boot) (c : Id) (hc : Proper c) (off now : Int) (hnow : 0 ≤ now - off) :
    ∃ disk l, adds H512 freshDisk h = .ok disk ∧ find H order off now disk b c = .ok (l, !l.isEmpty) ∧
      l.Perm ((stored (addedUnder b.name h)).flatMap (fun o =>
        if now - off < o.expiry ∧ o.expiry ≤ 253402300799 then List.replicate (o.cids.count c) o else [])) := by
  obtain ⟨disk, oks, h1, h2, hm, hs'⟩ := adds_kept H H512 h hs b
  obtain ⟨db, oks', l, r1, r2, r3⟩ := SqlOffer.C26_by_cid H H512 order hord _ hs' c hc off now hnow
  rw [hm] at r3
  rw [h2] at r1
  cases r1
  exact ⟨disk, l, h1, r2, r3⟩

/-- **C196**, the same for listings of a range: what a gateway lists are the offers on sale that gateways of its name were
given, with a content in the range. -/
theorem C196_range (H H512 : Hash) (order : List OfferRow → List OfferRow) (hord : ∀ l, (order l).Perm l) (h : List (Boot × CidOffer)) (hs : Sane H H512 (h.map (·.2)))
    (b : Boot) (cidMin cidMax : Id) (ha : Proper cidMin) (hb : Proper cidMax) (max off now : Int) (hnow : 0 ≤ now - off) :
    ∃ disk full, adds H512 freshDisk h = .ok disk ∧
      full.Perm ((stored (addedUnder b.name h)).filter (fun o => (o.cids.any (fun c => decide (position cidMin ≤ position c ∧ position c ≤ position cidMax))) &&
        decide (now - off < o.expiry ∧ o.expiry ≤ 253402300799))) ∧
      findRange H order off now disk b cidMin cidMax max = .ok (if max ≤ 0 then full else full.take max.toNat, !full.isEmpty) := by
  obtain ⟨disk, oks, h1, h2, hm, hs'⟩ := adds_kept H H512 h hs b
  obtain ⟨db, oks', full, r1, r2, r3⟩ := SqlOffer.C26_range H H512 order hord _ hs' cidMin cidMax ha hb max off now hnow
  rw [hm] at r2
  rw [h2] at r1
  cases r1
  exact ⟨disk, full, h1, r2, r3⟩

/-- **C196** (partial): a gateway whose name no other gateway of the machine has finds only offers that it was given itself.  Missing: gateways of the same
name, for which it is false (`C196_refuted`). -/
theorem C196_partial (H H512 : Hash) (order : List OfferRow → List OfferRow) (hord : ∀ l, (order l).Perm l) (h : List (Boot × CidOffer)) (hs : Sane H H512 (h.map (·.2)))
    (b : Boot) (hb : ∀ e ∈ h, e.1.name = b.name → e.1 = b) (c : Id) (hc : Proper c) (off now : Int) (hnow : 0 ≤ now - off) :
    ∃ disk l, adds H512 freshDisk h = .ok disk ∧ find H order off now disk b c = .ok (l, !l.isEmpty) ∧
      ∀ o ∈ l, (b, o) ∈ h ∧ c ∈ o.cids ∧ now - off < o.expiry := by
  obtain ⟨disk, l, h1, h2, h3⟩ := C196_lookup H H512 order hord h hs b c hc off now hnow
  refine ⟨disk, l, h1, h2, fun o ho => ?_⟩
  obtain ⟨o', ho', hm⟩ := List.mem_flatMap.1 (h3.mem_iff.1 ho)
  split at hm
  · next hx =>
    obtain ⟨hz, rfl⟩ := List.mem_replicate.1 hm
    obtain ⟨e, he, rfl⟩ := List.mem_map.1 ((SqlOffer.C26_stored _).1 _ ho').1
    obtain ⟨he, hn⟩ := List.mem_filter.1 he
    have hn := hb e he (by simpa using hn)
    exact ⟨hn ▸ he, List.count_pos_iff.1 (Nat.pos_of_ne_zero hz), hx.1⟩
  · cases hm

/-- **C196**, refuted: if two gateways of a machine have no containers, or containers of the same name, an offer that one of them is given is found at the
other, which was given nothing, whatever other gateways are given before and after. -/
theorem C196_refuted (H H512 : Hash) (order : List OfferRow → List OfferRow) (hord : ∀ l, (order l).Perm l) (h1 h2 : List (Boot × CidOffer)) (a b : Boot) (o : CidOffer)
    (hs : Sane H H512 ((h1 ++ (a, o) :: h2).map (·.2))) (hp : o.price < 2 ^ 63) (hq : o.qos < 2 ^ 63)
    (hab : (a.dockerName = "" ∧ b.dockerName = "" ∧ a.host = b.host) ∨ (a.dockerName ≠ "" ∧ a.dockerName = b.dockerName))
    (c : Id) (hc : Proper c) (hco : c ∈ o.cids) (off now : Int) (hnow : 0 ≤ now - off) (hexp : now - off < o.expiry) (hyear : o.expiry ≤ 253402300799) :
    ∃ disk l, adds H512 freshDisk (h1 ++ (a, o) :: h2) = .ok disk ∧ find H order off now disk b c = .ok (l, true) ∧ ∃ o' ∈ l, terms o' = terms o := by
  have hn : a.name = b.name := by
    unfold Boot.name
    rcases hab with ⟨e1, e2, e3⟩ | ⟨e1, e2⟩
    · simp [e1, e2, e3]
    · rw [← e2, if_pos e1, if_pos e1]
  obtain ⟨disk, l, r1, r2, r3⟩ := C196_lookup H H512 order hord _ hs b c hc off now hnow
  have ho : o ∈ addedUnder b.name (h1 ++ (a, o) :: h2) := by
    refine List.mem_map.2 ⟨(a, o), List.mem_filter.2 ⟨by simp, by simpa using hn⟩, rfl⟩
  obtain ⟨o', ho', ht⟩ := (SqlOffer.C26_stored _).2.1 o ho hp hq
  have ht' := ht
  have hm : o' ∈ l := by
    refine r3.mem_iff.2 (List.mem_flatMap.2 ⟨o', ho', ?_⟩)
    have e1 : o'.expiry = o.expiry := by simp only [terms, Prod.mk.injEq] at ht; exact ht.2.2.2.1
    have e2 : o'.cids = o.cids := by simp only [terms, Prod.mk.injEq] at ht; exact ht.2.1
    rw [if_pos ⟨by omega, by omega⟩]
    exact List.mem_replicate.2 ⟨by rw [e2]; exact Nat.pos_iff_ne_zero.1 (List.count_pos_iff.2 hco), rfl⟩
  have he : l.isEmpty = false := by cases l with | nil => cases hm | cons x l => rfl
  rw [he] at r2
  exact ⟨disk, l, r1, r2, o', hm, ht'⟩

/-- Two gateways on one machine, without containers, and one in a container. -/
def exA : Boot := ⟨"machine", "", 1, 1, 1⟩
def exB : Boot := ⟨"machine", "", 2, 2, 2⟩
def exC : Boot := ⟨"machine", "gateway-2", 1, 1, 1⟩

theorem exSane : Sane Merkle.toyHash (fun b => b) (([(exA, Offer.exOffer)] : List (Boot × CidOffer)).map (·.2)) := by
  refine ⟨fun o ho => ?_, fun x hx y hy => ?_⟩
  · simp only [List.map_cons, List.map_nil, List.mem_cons, List.not_mem_nil, or_false] at ho
    subst ho
    exact Offer.exOffer_built
  · intro b b' _ _ h
    exact h

/-- Non-vacuity: the second gateway finds the offer of the first. -/
example : ∃ disk l, adds (fun b => b) freshDisk [(exA, Offer.exOffer)] = .ok disk ∧ find Merkle.toyHash (fun l => l) 0 1000 disk exB (Merkle.exId 2) = .ok (l, true) ∧
    ∃ o' ∈ l, terms o' = terms Offer.exOffer :=
  C196_refuted Merkle.toyHash (fun b => b) (fun l => l) (fun l => .refl l) [] [] exA exB Offer.exOffer exSane (by decide) (by decide) (.inl ⟨rfl, rfl, rfl⟩)
    (Merkle.exId 2) (Merkle.exId_proper 2) (by decide) 0 1000 (by decide) (by decide) (by decide)

/-- Non-vacuity: the gateway in the container finds nothing that it was not given. -/
example : ∃ disk l, adds (fun b => b) freshDisk [(exA, Offer.exOffer)] = .ok disk ∧ find Merkle.toyHash (fun l => l) 0 1000 disk exC (Merkle.exId 2) = .ok (l, !l.isEmpty) ∧
    ∀ o ∈ l, (exC, o) ∈ [(exA, Offer.exOffer)] ∧ Merkle.exId 2 ∈ o.cids ∧ 1000 - 0 < o.expiry :=
  C196_partial Merkle.toyHash (fun b => b) (fun l => l) (fun l => .refl l) [(exA, Offer.exOffer)] exSane exC
    (fun e he hn => by
      simp only [List.mem_cons, List.not_mem_nil, or_false] at he
      subst he
      exact absurd hn (by decide))
    (Merkle.exId 2) (Merkle.exId_proper 2) 0 1000 (by decide)

end FcRetrieval.SharedDisk
