import Verif.Lemmas.RingQuery
/-! Helper lemmas: `Insert` and `Remove` return normally also on a damaged ring. -/

set_option linter.unusedSimpArgs false

namespace FcRetrieval.Ring

theorem insertLoop_ok {h : Heap} {hv : Hex} {k : Nat} {e : Option Nat} (hs : Stops h hv e) :
    ∀ {xs : List Nat} {fuel prv : Nat}, Path h xs e → xs.length < fuel →
    ∃ p, insertLoop h hv k fuel prv (xs.head?.or e) = .ok p
  | [], fuel + 1, prv, _, _ => by
    cases e with
    | none => exact ⟨_, rfl⟩
    | some z => simp [insertLoop, hs z rfl]
  | a :: xs, fuel + 1, prv, hp, hf => by
    obtain ⟨p, ih⟩ := insertLoop_ok hs (k := k) (xs := xs) (fuel := fuel) (prv := a) hp.2 (by simpa using hf)
    simp only [List.head?_cons, Option.some_or, insertLoop, hp.1]
    split
    · exact ⟨_, rfl⟩
    · split
      · exact ⟨_, rfl⟩
      · split
        · exact ⟨_, rfl⟩
        · exact ⟨p, ih⟩

theorem removeLoop_ok {h : Heap} {hv x : Hex} {k : Nat} {e : Option Nat} (hs : Stops h hv e) :
    ∀ {xs : List Nat} {fuel : Nat}, Path h xs e → xs.length < fuel →
    ∃ p, removeLoop h hv x k fuel (xs.head?.or e) = .ok p
  | [], fuel + 1, _, _ => by
    cases e with
    | none => exact ⟨_, rfl⟩
    | some z => simp [removeLoop, hs z rfl]
  | a :: xs, fuel + 1, hp, hf => by
    obtain ⟨p, ih⟩ := removeLoop_ok hs (k := k) (x := x) (xs := xs) (fuel := fuel) hp.2 (by simpa using hf)
    simp only [List.head?_cons, Option.some_or, removeLoop, hp.1]
    split
    · exact ⟨_, rfl⟩
    · split
      · exact ⟨_, rfl⟩
      · split
        · exact ⟨_, rfl⟩
        · exact ⟨p, ih⟩

theorem path_congr {h h' : Heap} {e : Option Nat} : ∀ {xs : List Nat}, (∀ a ∈ xs, (h' a).next = (h a).next) →
    Path h xs e → Path h' xs e
  | [], _, _ => trivial
  | a :: _, hn, hp => ⟨by rw [hn a (by simp)]; exact hp.1, path_congr (fun b hb => hn b (by simp [hb])) hp.2⟩

theorem insert_ok {r : Ring} {as : List Nat} {x : Hex} (hr : Walkable r as) : ∃ r', insert r x = .ok r' := by
  by_cases hx : validateInput x = false
  · exact ⟨r, insert_invalid hx⟩
  match as, hr with
  | [], hr => exact absurd hr.two (by simp)
  | hd :: rest, hr =>
    have hh := hr.head
    simp at hh
    have hhc := hr.alloc hd (by simp)
    have hpath : Path (allocNode r x).heap (hd :: rest) (some hd) := by
      refine path_congr ?_ (hr.path hd rfl)
      intro a ha
      have := hr.alloc a ha
      simp [allocNode, Heap.upd, Nat.ne_of_lt this]
    generalize hH : allocNode r x = r1 at hpath
    have hhead : r1.head = some hd := by rw [← hH]; exact hh
    have hcap : r1.cap = r.cap + 1 := by rw [← hH]; rfl
    simp only [insert, if_neg hx, hH]
    have hlen := hr.len
    simp at hlen
    by_cases hsz : r1.size = 0
    · simp [insertNode, hsz, deref, bind, Except.bind, pure, Except.pure]
    · obtain ⟨p, hp⟩ := insertLoop_ok (h := r1.heap) (hv := (r1.heap hd).val) (k := (r1.heap r.cap).key)
        (e := some hd) (xs := rest) (fuel := r1.cap + 1) (prv := hd) (by intro z hz; simp at hz; rw [hz]) hpath.2 (by omega)
      rw [← hpath.1] at hp
      simp only [insertNode, if_neg hsz, hhead, deref, bind, Except.bind, pure, Except.pure, hp]
      split
      · exact ⟨_, rfl⟩
      · split
        · exact ⟨_, rfl⟩
        · cases p <;> exact ⟨_, rfl⟩

theorem remove_ok {r : Ring} {as : List Nat} {x : Hex} (hr : Walkable r as) : ∃ r', remove r x = .ok r' := by
  by_cases hx : validateInput x = false
  · exact ⟨r, remove_invalid hx⟩
  match as, hr with
  | [], hr => exact absurd hr.two (by simp)
  | [hd], hr => exact absurd hr.two (by simp)
  | hd :: b :: rest, hr =>
    have hh := hr.head
    simp at hh
    have hpath := hr.path hd rfl
    have hlen := hr.len
    have hn : (r.heap hd).next = some b := by simpa using hpath.1
    have hbne : b ≠ hd := (hr.distinct hd (b :: rest) rfl b (by simp)).2
    obtain ⟨q, hq⟩ := hr.prv b (by simp)
    obtain ⟨p, hp⟩ := removeLoop_ok (h := r.heap) (hv := (r.heap hd).val) (x := x) (k := keyOf x)
      (e := some hd) (xs := b :: rest) (fuel := r.cap + 1) (by intro z hz; simp at hz; rw [hz]) hpath.2
      (by simp at hlen ⊢; omega)
    rw [← hpath.1] at hp
    have hq' : ((r.heap.setPrv hd (some b)) b).prv = some q := by
      simp [Heap.setPrv, Heap.upd, hbne, hq]
    rw [hn] at hp
    simp only [remove, if_neg hx, hh, deref, bind, Except.bind, pure, Except.pure, hp, hn, hq']
    split
    · exact ⟨_, rfl⟩
    split
    · exact ⟨_, rfl⟩
    split
    · split
      · exact ⟨_, rfl⟩
      · split <;> exact ⟨_, rfl⟩
    split
    · exact ⟨_, rfl⟩
    · cases p <;> exact ⟨_, rfl⟩

end FcRetrieval.Ring
