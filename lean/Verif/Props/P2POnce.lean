import Verif.Props.P2P
/-!
# C47: a server is started once, and a connection that is closed is left alone
-/
set_option linter.unusedSimpArgs false

namespace FcRetrieval.P2P
open FcRetrieval.Message (Msg Protocol)
open FcRetrieval.Tcp (Ev)

/-- The server was started among these calls. -/
def Started {η : Type} (ops : List (Setup η)) : Prop := Setup.start ∈ ops

theorem started_iff {η : Type} : ∀ (ops : List (Setup η)) (s : Server η), (ops.foldl perform s).started = true ↔ s.started = true ∨ Started ops := by
  intro ops
  induction ops with
  | nil => intro s; simp [Started]
  | cons op ops ih =>
    intro s
    rw [List.foldl_cons, ih]
    cases op with
    | add a t h =>
      have : (perform s (.add a t h)).started = s.started := by
        simp only [perform, addHandler]
        split
        · rfl
        · split <;> rfl
      rw [this]
      simp [Started]
    | start =>
      have : (perform s .start).started = true := by
        simp only [perform, start]
        split
        · assumption
        · rfl
      rw [this]
      simp [Started]

/-- **C47**, starting: whatever calls were made before, starting a server reports success exactly if it was not started among them; a second start changes
nothing. -/
theorem C47_once {η : Type} (addrs : List String) (ops : List (Setup η)) :
    ((start (setup addrs ops)).2 = true ↔ ¬ Started ops) ∧ (Started ops → setup addrs (ops ++ [.start]) = setup addrs ops) := by
  have h : (setup addrs ops).started = true ↔ Started ops := by
    unfold setup
    rw [started_iff]
    simp [new]
  constructor
  · rw [← h]
    unfold start
    split <;> simp_all
  · intro hs
    have hs := h.2 hs
    unfold setup at *
    rw [List.foldl_append]
    simp only [List.foldl_cons, List.foldl_nil, perform, start]
    rw [if_pos hs]

/-- **C47**, closing: a connection that was lost or sent something unreadable, or whose handler failed, is served no further. -/
theorem C47_closed (pr : Protocol) (hs : Int → Option Handler) : ∀ (n : Nat) (conn : List Ev) (l1 l2 : List Act) (a : Act), serve pr hs n conn = l1 ++ a :: l2 →
    (a = .dropped ∨ ∃ t m w, a = .called t m w false) → l2 = [] := by
  intro n
  induction n with
  | zero => intro conn l1 l2 a h; rw [serve] at h; simp at h
  | succ n ih =>
    intro conn l1 l2 a h ha
    rw [serve] at h
    match hr : round pr hs conn with
    | (x, none) =>
      rw [hr] at h
      cases l1 with
      | nil => exact ((List.cons.inj h).2).symm
      | cons y l1 => simp at h
    | (x, some c) =>
      rw [hr] at h
      cases l1 with
      | cons y l1 => exact ih c l1 l2 a (List.cons.inj h).2 ha
      | nil =>
        exfalso
        obtain ⟨rfl, -⟩ := List.cons.inj h
        unfold round at hr
        split at hr
        · cases hr; simp at ha
        · cases hr
        · cases hr
        · cases hr
        · split at hr
          · split at hr
            · cases hr; simp at ha
            · cases hr
          · cases hr; simp at ha

/-- Non-vacuity: a connection that is lost at once. -/
example (pr : Protocol) : serve pr (fun _ => none) 3 [] = [] ++ Act.dropped :: [] := rfl

/-- Non-vacuity: a second start. -/
example : Started [Setup.add "9010" 1 'a', .start] ∧ ¬ Started [Setup.add "9010" 1 'a'] := by simp [Started]

end FcRetrieval.P2P
