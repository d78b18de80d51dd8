import Verif.Spec.P2P
import Verif.Lemmas.Maps
import Verif.Props.Tcp
import Verif.Props.Codecs
/-!
# C47: requests are dispatched to the right handler
-/
set_option linter.unusedSimpArgs false

namespace FcRetrieval.P2P
open FcRetrieval.Message (Msg Protocol InRange exMsg exMsg_inRange)
open FcRetrieval.Tcp (Ev Out Arrives Fits frame readMsg exMsg_fits)

/-! ## the table -/

theorem mget_new {η : Type} (addrs : List String) (a : String) :
    mget (new addrs : Server η).handlers a = if a ∈ addrs then some [] else none := by
  have key : ∀ (l : List String) (m : List (String × List (Int × η))),
      mget (l.foldl (fun m a => mset m a []) m) a = if a ∈ l then some [] else mget m a := by
    intro l
    induction l with
    | nil => intro m; simp
    | cons b l ih =>
      intro m
      rw [List.foldl_cons, ih, mget_mset]
      by_cases hb : b = a
      · subst hb
        simp
      · have : a ≠ b := fun h => hb h.symm
        simp [hb, this]
  rw [new, key]
  rfl

theorem lookup_add {η : Type} (s : Server η) (hs : s.started = false) (a : String) (t : Int) (h : η) (a' : String) (t' : Int) :
    lookup (addHandler s a t h) a' t' =
      if a = a' ∧ t = t' ∧ (mget s.handlers a').isSome then some h else lookup s a' t' := by
  unfold addHandler lookup
  rw [hs]
  simp only [Bool.false_eq_true, ↓reduceIte]
  cases hg : mget s.handlers a with
  | none =>
    by_cases ha : a = a'
    · subst ha
      simp [hg]
    · simp [ha]
  | some tbl =>
    simp only [mget_mset]
    by_cases ha : a = a'
    · subst ha
      simp only [hg, mget_mset, ↓reduceIte, true_and, Option.isSome_some, and_true]
    · simp [ha]

theorem setup_step {η : Type} : ∀ (ops : List (Setup η)) (s : Server η) (a : String) (t : Int),
    lookup (ops.foldl perform s) a t =
      if s.started = false ∧ (mget s.handlers a).isSome then ((added a t ops).getLast?).or (lookup s a t) else lookup s a t
  | [], s, a, t => by simp [added]
  | .start :: ops, s, a, t => by
    rw [List.foldl_cons, setup_step ops]
    simp only [added, perform]
    cases hst : s.started <;> simp [start, hst, lookup]
  | .add a' t' h :: ops, s, a, t => by
    rw [List.foldl_cons, setup_step ops]
    have hstart : (addHandler s a' t' h).started = s.started := by
      unfold addHandler
      split
      · rfl
      · split <;> rfl
    have hsome : (mget (addHandler s a' t' h).handlers a).isSome = (mget s.handlers a).isSome := by
      unfold addHandler
      split
      · rfl
      · split
        · rfl
        · rename_i hg
          simp only [mget_mset]
          split
          · rename_i e; subst e; simp [hg]
          · rfl
    simp only [perform, hstart, hsome]
    cases hst : s.started with
    | true => simp [addHandler, hst, lookup]
    | false =>
      simp only [lookup_add s hst, added]
      by_cases hg : (mget s.handlers a).isSome = true
      · by_cases hat : a' = a ∧ t' = t
        · simp only [hat, hg, and_self, ↓reduceIte]
          rw [List.getLast?_cons]
          cases (added a t ops).getLast? <;> simp
        · have : ¬ (a' = a ∧ t' = t ∧ (mget s.handlers a).isSome = true) := fun h => hat ⟨h.1, h.2.1⟩
          rw [if_neg this, if_neg hat]
      · simp [hg]

/-- C47: the handler called for a type on an address is the last one added for them before the server was started; handlers added
later, for other addresses or for other types do not matter. -/
theorem C47_table {η : Type} (addrs : List String) (ops : List (Setup η)) (addr : String) (type : Int) :
    lookup (setup addrs ops) addr type = inCharge addrs ops addr type := by
  rw [setup, setup_step, mget_new]
  have hl : lookup (new addrs : Server η) addr type = none := by
    unfold lookup
    rw [mget_new]
    by_cases h : addr ∈ addrs <;> simp [h, mget]
  have hst : (new addrs : Server η).started = false := rfl
  rw [hl, hst, inCharge]
  by_cases h : addr ∈ addrs <;> simp [h]

/-- Replacing a handler, another address, another type, and a registration that comes too late. -/
example : lookup (setup ["9010", "9011"] [.add "9010" 5 'a', .add "9010" 5 'b', .add "9011" 5 'c', .add "80" 5 'd', .start,
      .add "9010" 5 'e', .add "9010" 6 'f']) "9010" 5 = some 'b' ∧
    inCharge ["9010"] [.add "9010" 5 'a', .start, Setup.add "9010" 6 'f'] "9010" 6 = none := by
  rw [C47_table]
  decide +kernel

/-! ## the serving loop -/

/-- C47: whatever arrives, a handler is called only with a message that was read from the connection, and only the one registered
for the type of the message; the loop never crashes, and it closes the connection only if nothing more can be read, the message
is not readable, or the handler says so. -/
theorem C47_only (pr : Protocol) (hs : Int → Option Handler) (conn : List Ev) :
    (round pr hs conn).1 ≠ .crashed ∧
    (∀ t m w ok, (round pr hs conn).1 = .called t m w ok →
      t = m.type ∧ ∃ h c c', readMsg conn = (.msg m, c) ∧ hs m.type = some h ∧ h m c = (w, c', ok)) ∧
    ((round pr hs conn).2 = none → (readMsg conn).1 = .eof ∨ (readMsg conn).1 = .bad ∨
      ∃ m h c w c', readMsg conn = (.msg m, c) ∧ hs m.type = some h ∧ h m c = (w, c', false)) := by
  have hnc := (Tcp.C31_only_what_was_sent conn).1
  unfold round
  generalize hr : readMsg conn = r at hnc ⊢
  obtain ⟨o, c⟩ := r
  cases o with
  | timeout => simp
  | eof => simp
  | bad => simp
  | crash => exact absurd rfl hnc
  | msg m =>
    cases hh : hs m.type with
    | none => simp only [hh]; simp
    | some h =>
      simp only [hh]
      generalize he : h m c = x
      obtain ⟨w, c', ok⟩ := x
      cases ok with
      | true =>
        refine ⟨by simp, ?_, by simp⟩
        intro t m' w' ok' heq
        simp only [Act.called.injEq] at heq
        obtain ⟨rfl, rfl, rfl, rfl⟩ := heq
        exact ⟨rfl, h, c, c', rfl, hh, he⟩
      | false =>
        refine ⟨by simp, ?_, ?_⟩
        · intro t m' w' ok' heq
          simp only [Act.called.injEq] at heq
          obtain ⟨rfl, rfl, rfl, rfl⟩ := heq
          exact ⟨rfl, h, c, c', rfl, hh, he⟩
        · intro _
          exact Or.inr (Or.inr ⟨m, h, c, w, c', rfl, hh, he⟩)

/-- C47: a message, however its bytes are cut, is given to the handler of its type, which then has the rest of the connection. -/
theorem C47_dispatched (pr : Protocol) (hs : Int → Option Handler) (m : Msg) (hm : InRange m) (hf : Fits m) (evs after : List Ev)
    (ha : Arrives evs (frame m)) (h : Handler) (hh : hs m.type = some h) :
    round pr hs (evs ++ after) =
      (.called m.type m (h m after).1 (h m after).2.2, if (h m after).2.2 then some (h m after).2.1 else none) := by
  unfold round
  rw [Tcp.C31_delivered m hm hf evs after ha]
  simp only [hh]
  generalize h m after = x
  obtain ⟨w, c', ok⟩ := x
  cases ok <;> rfl

/-- C47: a message of an unknown type is answered, and the connection stays usable: the rest of it is served. -/
theorem C47_unknown (pr : Protocol) (hs : Int → Option Handler) (m : Msg) (hm : InRange m) (hf : Fits m) (evs after : List Ev)
    (ha : Arrives evs (frame m)) (hh : hs m.type = none) :
    round pr hs (evs ++ after) = (.invalid (invalidReply pr), some after) := by
  unfold round
  rw [Tcp.C31_delivered m hm hf evs after ha]
  simp only [hh]

/-- C47: the answer is one message, which the peer reads as "invalid message", however it is cut. -/
theorem C47_invalid_reply (pr : Protocol) (hpr : Codecs.ProtocolOk pr) (evs after : List Ev) (ha : Arrives evs (invalidReply pr))
    (hf : ∀ m, Wire.encode Codecs.invalidMessageResponse pr () = .ok m → Fits m) :
    ∃ m, readMsg (evs ++ after) = (.msg m, after) ∧ m.type = 902 ∧ Wire.decode Codecs.invalidMessageResponse m = .ok () := by
  obtain ⟨m, h1, ht, hv, hsup, h3⟩ := Codecs.C30_invalidMessageResponse pr hpr
  obtain ⟨h4, h5⟩ := h3 m.signature
  have hr : InRange m := (Message.C27_read_total _).2 m h4
  rw [invalidReply, h1] at ha
  exact ⟨m, Tcp.C31_delivered m hr (hf m h1) evs after ha, ht, h5⟩

/-- With the default protocol versions the answer is short. -/
example (m : Msg) (h : Wire.encode Codecs.invalidMessageResponse Message.defaultProtocol () = .ok m) :
    Codecs.ProtocolOk Message.defaultProtocol ∧ Fits m := by
  refine ⟨Codecs.defaultProtocolOk, ?_⟩
  have : Wire.encode Codecs.invalidMessageResponse Message.defaultProtocol () =
    .ok (Message.create Message.defaultProtocol 902 (some (Message.jsonText (.obj [])))) := rfl
  rw [this] at h
  cases h
  unfold Fits
  decide +kernel

/-- C47: a sequence of messages, each in chunks of its own, is served in order: every message is given to the handler in charge for
its type, or answered as invalid. -/
theorem C47_served (pr : Protocol) (hs : Int → Option (Msg → Bytes)) : ∀ (l : List (Msg × List Ev)),
    (∀ p ∈ l, InRange p.1 ∧ Fits p.1 ∧ Arrives p.2 (frame p.1)) →
    serve pr (fun t => (hs t).map writes) (l.length + 1) (l.map (·.2)).flatten = l.map (fun p => expected pr hs p.1) ++ [.dropped]
  | [], _ => rfl
  | (m, evs) :: l, h => by
    obtain ⟨h1, h2, h3⟩ := h (m, evs) (by simp)
    have ih := C47_served pr hs l (fun p hp => h p (by simp [hp]))
    simp only [List.length_cons, List.map_cons, List.flatten_cons, List.cons_append]
    rw [serve]
    cases hh : hs m.type with
    | none =>
      rw [C47_unknown pr _ m h1 h2 evs _ h3 (by simp [hh])]
      simp only [ih, expected, hh]
    | some g =>
      rw [C47_dispatched pr _ m h1 h2 evs _ h3 (writes g) (by simp [hh])]
      simp only [ih, expected, hh, writes, ↓reduceIte]

/-- Two messages, of a known and an unknown type. -/
example (x : UInt8) (xs : Bytes) (hx : x :: xs = frame exMsg) (pr : Protocol) :
    serve pr (fun t => (if t = exMsg.type then some (fun _ => [1, 2, 3]) else none).map writes) 2 [.data x xs] =
      [.called exMsg.type exMsg [1, 2, 3] true, .dropped] := by
  have := C47_served pr (fun t => if t = exMsg.type then some (fun _ => [1, 2, 3]) else none) [(exMsg, [.data x xs])] (by
    intro p hp
    simp only [List.mem_singleton] at hp
    subst hp
    exact ⟨exMsg_inRange, exMsg_fits, by simp [Tcp.AllData], by simp [Tcp.bytesOf]; exact hx⟩)
  simpa [expected] using this

/-! ## HTTP -/

/-- C47, over HTTP: the handler in charge gets the message that was sent; a type without a handler is a bad request. -/
theorem C47_http {η : Type} (addrs : List String) (ops : List (Setup η)) (addr : String) (m : Msg) (hm : InRange m) :
    route (setup addrs ops) addr (Message.toBytes m) =
      match inCharge addrs ops addr m.type with
      | some h => .handled h m
      | none => .badRequest := by
  unfold route
  obtain ⟨t, ht⟩ := Tcp.toBytes_prefix m
  rw [if_neg (by rw [ht, List.length_cons]; omega), Message.C27_wire_round_trip m hm]
  simp only [C47_table]
  cases inCharge addrs ops addr m.type <;> rfl

/-- C47, over HTTP: whatever is sent, a handler is called only with a message the bytes encode, and it is the one in charge; the
router never crashes. -/
theorem C47_http_only {η : Type} (addrs : List String) (ops : List (Setup η)) (addr : String) (body : Bytes) :
    route (setup addrs ops) addr body ≠ .crashed ∧
    ∀ h m, route (setup addrs ops) addr body = .handled h m → Message.fromBytes body = .ok m ∧ inCharge addrs ops addr m.type = some h := by
  unfold route
  by_cases hb : body.length = 0
  · simp [hb]
  · rw [if_neg hb]
    cases hf : Message.fromBytes body with
    | err => simp
    | panic => exact absurd hf (Message.C27_read_total body).1
    | ok m =>
      simp only [C47_table]
      cases hc : inCharge addrs ops addr m.type with
      | none => simp
      | some h =>
        refine ⟨by simp, ?_⟩
        intro h' m' he
        simp only [Routed.handled.injEq] at he
        obtain ⟨rfl, rfl⟩ := he
        exact ⟨rfl, hc⟩

example : InRange exMsg ∧ inCharge ["9010"] [.add "9010" exMsg.type 'a', .start] "9010" exMsg.type = some 'a' :=
  ⟨exMsg_inRange, by decide +kernel⟩

end FcRetrieval.P2P
