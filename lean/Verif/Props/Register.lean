import Verif.Spec.Register
import Verif.Lemmas.Maps
import Verif.Props.Message
/-!
# C65: the register service
-/
set_option linter.unusedSimpArgs false

namespace FcRetrieval.Register
open Message (jsonText parseText)

theorem parse_jsonText (j : Json) : parseText (jsonText j) = some j := json_text_round_trip j

/-! ## records survive the texts -/

theorem decStr_opt (name : String) (v : List Char) (fs : List (String × Json)) (n : String) :
    field n (opt name v ++ fs) = (field n fs).or (if name = n ∧ v ≠ [] then some (.str v) else none) := by
  unfold opt
  by_cases h : v = []
  · subst h
    simp
  · rw [if_neg h]
    simp only [List.cons_append, List.nil_append, field]
    cases field n fs with
    | some w => rfl
    | none => simp [h]

theorem field_opt (name : String) (v : List Char) (n : String) :
    field n (opt name v) = if name = n ∧ v ≠ [] then some (.str v) else none := by
  have := decStr_opt name v [] n
  simpa [field] using this

theorem decStr_if (v : List Char) : decStr (if v = [] then none else some (.str v)) = some v := by
  by_cases h : v = [] <;> simp [h, decStr]

/-- The member names of the two structs. -/
def tags : List String :=
  ["nodeId", "address", "rootSigningKey", "signingKey", "regionCode", "networkInfoGateway", "networkInfoProvider", "networkInfoClient", "networkInfoAdmin"]

theorem tags_apart : ∀ a ∈ tags, ∀ b ∈ tags, b ≠ a → sameName a b = false := by decide +kernel

theorem keys_opt (name : String) (v : List Char) : (opt name v).map Prod.fst ⊆ [name] := by
  unfold opt
  split <;> simp

theorem memberFor_tags {fs : List (String × Json)} (h : fs.map Prod.fst ⊆ tags) {n : String} (hn : n ∈ tags) : memberFor n fs = field n fs :=
  memberFor_field (fun k hk => tags_apart n hn k (h hk))

theorem unmarshal_tags {k : Kind} {fs : List (String × Json)} (h : fs.map Prod.fst ⊆ tags) : unmarshal k (.obj fs) = (do
    let nodeID ← decStr (field "nodeId" fs)
    let address ← decStr (field "address" fs)
    let rootSigningKey ← decStr (field "rootSigningKey" fs)
    let signingKey ← decStr (field "signingKey" fs)
    let regionCode ← decStr (field "regionCode" fs)
    let netGateway ← decStr (field "networkInfoGateway" fs)
    let netProvider ← (match k with | .gateway => decStr (field "networkInfoProvider" fs) | .provider => some [])
    let netClient ← decStr (field "networkInfoClient" fs)
    let netAdmin ← decStr (field "networkInfoAdmin" fs)
    pure { nodeID, address, rootSigningKey, signingKey, regionCode, netGateway, netProvider, netClient, netAdmin }) := by
  have e : ∀ n ∈ tags, memberFor n fs = field n fs := fun n hn => memberFor_tags h hn
  simp only [unmarshal, decObj, Option.bind_eq_bind, Option.bind_some]
  rw [e "nodeId" (by simp [tags]), e "address" (by simp [tags]), e "rootSigningKey" (by simp [tags]), e "signingKey" (by simp [tags]),
    e "regionCode" (by simp [tags]), e "networkInfoGateway" (by simp [tags]), e "networkInfoProvider" (by simp [tags]),
    e "networkInfoClient" (by simp [tags]), e "networkInfoAdmin" (by simp [tags])]
  cases k <;> rfl

theorem service_tags (k : Kind) (r : Record) : (serviceMembers k r).map Prod.fst ⊆ tags := by
  intro x hx
  have key : ∀ (n : String) (v : List Char), x ∈ (opt n v).map Prod.fst → x = n := fun n v h => by simpa using keys_opt n v h
  cases k <;>
  · simp only [serviceMembers, List.map_append, List.mem_append, List.map_nil, List.not_mem_nil, or_false] at hx
    simp only [tags, List.mem_cons, List.not_mem_nil, or_false]
    grind

theorem unmarshal_members (k : Kind) (r : Record) (h : Fits k r) : unmarshal k (.obj (members k r)) = some r := by
  obtain ⟨a1, a2, a3, a4, a5, a6, a7, a8, a9⟩ := r
  cases k with
  | gateway => rfl
  | provider =>
    have : a7 = [] := h rfl
    subst this
    rfl

theorem unmarshal_service (k : Kind) (r : Record) (h : Fits k r) : unmarshal k (.obj (serviceMembers k r)) = some r := by
  obtain ⟨a1, a2, a3, a4, a5, a6, a7, a8, a9⟩ := r
  cases k with
  | gateway =>
    rw [unmarshal_tags (service_tags _ _)]
    simp only [serviceMembers, Option.bind_eq_bind, Option.bind_some, List.append_assoc, decStr_opt, field_opt]
    simp [decStr_if]
  | provider =>
    have : a7 = [] := h rfl
    subst this
    rw [unmarshal_tags (service_tags _ _)]
    simp only [serviceMembers, Option.bind_eq_bind, Option.bind_some, List.append_assoc, decStr_opt, field_opt, List.nil_append]
    simp [decStr_if]

theorem unmarshal_fits (k : Kind) (j : Json) (r : Record) (h : unmarshal k j = some r) : Fits k r := by
  intro hk
  subst hk
  unfold unmarshal at h
  cases hd : decObj j with
  | none => simp [hd] at h
  | some fs =>
    simp only [hd, Option.bind_eq_bind, Option.bind_some] at h
    cases h1 : decStr (memberFor "nodeId" fs) <;> simp only [h1, Option.bind_none, Option.bind_some, reduceCtorEq] at h
    cases h1 : decStr (memberFor "address" fs) <;> simp only [h1, Option.bind_none, Option.bind_some, reduceCtorEq] at h
    cases h1 : decStr (memberFor "rootSigningKey" fs) <;> simp only [h1, Option.bind_none, Option.bind_some, reduceCtorEq] at h
    cases h1 : decStr (memberFor "signingKey" fs) <;> simp only [h1, Option.bind_none, Option.bind_some, reduceCtorEq] at h
    cases h1 : decStr (memberFor "regionCode" fs) <;> simp only [h1, Option.bind_none, Option.bind_some, reduceCtorEq] at h
    cases h1 : decStr (memberFor "networkInfoGateway" fs) <;> simp only [h1, Option.bind_none, Option.bind_some, reduceCtorEq] at h
    cases h1 : decStr (memberFor "networkInfoClient" fs) <;> simp only [h1, Option.bind_none, Option.bind_some, reduceCtorEq] at h
    cases h1 : decStr (memberFor "networkInfoAdmin" fs) <;> simp only [h1, Option.bind_none, Option.bind_some, reduceCtorEq] at h
    simp only [Option.pure_def, Option.some.injEq] at h
    rw [← h]

theorem readRecord_stored (k : Kind) (r : Record) (h : Fits k r) : readRecord k (storedText k r) = some r := by
  unfold readRecord storedText
  rw [parse_jsonText, Option.bind_some, unmarshal_service k r h]

theorem readRecord_registration (k : Kind) (r : Record) (h : Fits k r) : readRecord k (registration k r) = some r := by
  unfold readRecord registration
  rw [parse_jsonText, Option.bind_some, unmarshal_members k r h]

theorem readRecord_fits (k : Kind) (b : Bytes) (r : Record) (h : readRecord k b = some r) : Fits k r := by
  unfold readRecord at h
  cases hp : parseText b with
  | none => simp [hp] at h
  | some j => exact unmarshal_fits k j r (by simpa [hp] using h)

theorem readValue_obj (fs : List (String × Json)) (fuel : Nat) (r : List Char) (h : 2 * (render (.obj fs)).length ≤ fuel) :
    readValue fuel (render (.obj fs) ++ r) = some (.obj fs, r) := by
  cases fuel with
  | zero => have := render_length (.obj fs); omega
  | succ fuel =>
    cases fs with
    | nil => rfl
    | cons kv fs =>
      obtain ⟨k, v⟩ := kv
      rw [readValue, skipWs_render]
      simp only [render, List.cons_append, List.append_assoc]
      rw [if_neg (by decide), if_neg (by decide), if_pos trivial]
      simp only [render, List.length_cons, List.length_append] at h
      have key := readFields_render k v fs fuel r (by omega)
      rw [renderField_eq] at key ⊢
      rw [List.cons_append] at key ⊢
      rw [skipWs_cons rfl]
      split
      · rename_i heq; simp only [List.cons.injEq] at heq; exact absurd heq.1 (by decide)
      · rw [key]

/-- What follows the first value is not looked at. -/
theorem firstValue_obj (fs : List (String × Json)) (rest : List Char) : firstValue (jsonText (.obj fs) ++ utf8Bytes rest) = some (.obj fs) := by
  have : jsonText (.obj fs) ++ utf8Bytes rest = utf8Bytes (render (.obj fs) ++ rest) := by simp [jsonText, utf8Bytes, List.flatMap_append]
  unfold firstValue
  rw [this, utf8Text_bytes, Option.bind_some, readValue_obj fs _ rest (by simp only [List.length_append]; omega)]
  rfl

theorem readBody_registration_more (k : Kind) (r : Record) (h : Fits k r) (rest : List Char) :
    readBody k (registration k r ++ utf8Bytes rest) = some r := by
  unfold readBody registration
  rw [firstValue_obj, Option.bind_some, unmarshal_members k r h]

theorem readBody_registration (k : Kind) (r : Record) (h : Fits k r) : readBody k (registration k r) = some r := by
  have := readBody_registration_more k r h []
  simpa [utf8Bytes] using this

theorem readBody_fits (k : Kind) (b : Bytes) (r : Record) (h : readBody k b = some r) : Fits k r := by
  unfold readBody at h
  cases hp : firstValue b with
  | none => simp [hp] at h
  | some j => exact unmarshal_fits k j r (by simpa [hp] using h)

/-- A body that is the text of a record and nothing else is read as that record. -/
theorem readBody_of_record (k : Kind) (b : Bytes) (r : Record) (h : readRecord k b = some r) : readBody k b = some r := by
  unfold readRecord parseText at h
  unfold readBody firstValue
  cases ht : utf8Text b with
  | none => simp [ht] at h
  | some s =>
    rw [ht, Option.bind_some] at h
    rw [Option.bind_some]
    unfold parseJson at h
    cases hv : readValue (2 * s.length + 2) s with
    | none => simp [hv] at h
    | some p =>
      obtain ⟨j, r'⟩ := p
      rw [hv] at h
      simp only at h
      split at h
      · simpa using h
      · simp at h

/-! ## the hashes -/

theorem hash_setHash (s : Service) (k k' : Kind) (h : List (List Char × Bytes)) :
    (s.setHash k h).hash k' = if k = k' then h else s.hash k' := by
  cases k <;> cases k' <;> rfl

theorem foldl_mdel (ks : List (List Char)) (m : List (List Char × Bytes)) : ∀ x, x ∈ ks.foldl mdel m ↔ x ∈ m ∧ x.1 ∉ ks := by
  induction ks generalizing m with
  | nil => simp
  | cons k ks ih =>
    intro x
    rw [List.foldl_cons, ih]
    simp only [mdel, List.mem_filter, List.mem_cons, not_or]
    constructor
    · rintro ⟨⟨h1, h2⟩, h3⟩
      exact ⟨h1, by simpa using h2, h3⟩
    · rintro ⟨h1, h2, h3⟩
      exact ⟨⟨h1, by simpa using h2⟩, h3⟩

theorem hash_deleteAll (s : Service) (k k' : Kind) : (deleteAll s k).hash k' = if k = k' then [] else s.hash k' := by
  unfold deleteAll
  rw [hash_setHash]
  by_cases h : k = k'
  · subst h
    simp only [↓reduceIte]
    rw [List.eq_nil_iff_forall_not_mem]
    intro x hx
    rw [foldl_mdel] at hx
    exact hx.2 (List.mem_map.2 ⟨x, hx.1, rfl⟩)
  · simp [h]

/-- What the hashes hold after a history. -/
theorem after_hash (ops : List Op) (k : Kind) :
    (mkeys ((after ops).hash k)).Nodup ∧
    ∀ id, mget ((after ops).hash k) id = (latest k id ops).map (storedText k) := by
  have key : ∀ (ops : List Op) (s : Service) (cur : List Char → Option Record), (mkeys (s.hash k)).Nodup →
      (∀ id, mget (s.hash k) id = (cur id).map (storedText k)) →
      (mkeys ((ops.foldl serve s).hash k)).Nodup ∧
      ∀ id, mget ((ops.foldl serve s).hash k) id = (ops.foldl (note k id) (cur id)).map (storedText k) := by
    intro ops
    induction ops with
    | nil => exact fun s cur h1 h2 => ⟨h1, h2⟩
    | cons op ops ih =>
      intro s cur h1 h2
      simp only [List.foldl_cons]
      cases op with
      | deleteAll k' =>
        refine ih (deleteAll s k') (fun id => if k' = k then none else cur id) ?_ ?_
        · rw [hash_deleteAll]
          split
          · simp [mkeys]
          · exact h1
        · intro id
          rw [hash_deleteAll]
          split
          · rfl
          · exact h2 id
      | add k' body =>
        cases hr : readBody k' body with
        | none =>
          have := ih s cur h1 h2
          simpa [serve, add, hr, note] using this
        | some r =>
          have hs : serve s (.add k' body) = s.setHash k' (mset (s.hash k') r.nodeID (storedText k' r)) := by
            simp [serve, add, hr]
          rw [hs]
          simp only [note, hr]
          refine ih _ (fun id => if k' = k ∧ r.nodeID = id then some r else cur id) ?_ ?_
          · rw [hash_setHash]
            split
            · rename_i e; subst e
              exact mset_nodup h1 _ _
            · exact h1
          · intro id
            rw [hash_setHash]
            by_cases e : k' = k
            · subst e
              simp only [↓reduceIte, true_and, mget_mset]
              by_cases e2 : r.nodeID = id
              · simp [e2]
              · simp [e2, h2 id]
            · simp [e, h2 id]
  exact key ops ⟨[], []⟩ (fun _ => none) (by cases k <;> simp [Service.hash, mkeys]) (by intro id; cases k <;> rfl)

theorem latest_inv (k : Kind) (id : List Char) (ops : List Op) (r : Record) (h : latest k id ops = some r) :
    r.nodeID = id ∧ Fits k r := by
  have key : ∀ (ops : List Op) (cur : Option Record), (∀ r, cur = some r → r.nodeID = id ∧ Fits k r) →
      ∀ r, ops.foldl (note k id) cur = some r → r.nodeID = id ∧ Fits k r := by
    intro ops
    induction ops with
    | nil => exact fun cur h r hr => h r hr
    | cons op ops ih =>
      intro cur h
      rw [List.foldl_cons]
      apply ih
      intro r hr
      cases op with
      | deleteAll k' =>
        simp only [note] at hr
        split at hr
        · cases hr
        · exact h r hr
      | add k' body =>
        simp only [note] at hr
        cases hrd : readBody k' body with
        | none => exact h r (by simpa [hrd] using hr)
        | some r' =>
          simp only [hrd] at hr
          split at hr
          · rename_i e
            injection hr with hr
            subst hr
            obtain ⟨rfl, rfl⟩ := e
            exact ⟨rfl, readBody_fits _ _ _ hrd⟩
          · exact h r hr
  exact key ops none (by simp) r h

/-! ## C65 -/

/-- C65: asking for an identifier gives the last record added for it since the last deletion, and an error if there is none. -/
theorem C65_latest (ops : List Op) (k : Kind) (id : List Char) :
    match latest k id ops with
    | some r => ∃ b, getByID (after ops) k id = .ok b ∧ readRecord k b = some r
    | none => getByID (after ops) k id = .error := by
  have h := (after_hash ops k).2 id
  unfold getByID
  cases hl : latest k id ops with
  | none =>
    rw [hl] at h
    simp [h]
  | some r =>
    rw [hl] at h
    obtain ⟨_, hf⟩ := latest_inv k id ops r hl
    simp only [h, Option.map_some, readRecord_stored k r hf, Option.getD_some]
    exact ⟨_, rfl, readRecord_stored k r hf⟩

/-- C65: the listing is readable, and it consists of exactly the latest record of every registered identifier, once each. -/
theorem C65_listing (ops : List Op) (k : Kind) :
    ∃ l : List Record, readListing k (list (after ops) k) = some (l.map some) ∧ (l.map (·.nodeID)).Nodup ∧
      ∀ r, r ∈ l ↔ latest k r.nodeID ops = some r := by
  obtain ⟨hn, hg⟩ := after_hash ops k
  -- every stored text is the text of the latest record of its key
  have hst : ∀ e ∈ (after ops).hash k, ∃ r, latest k e.1 ops = some r ∧ e.2 = storedText k r ∧ r.nodeID = e.1 ∧ Fits k r := by
    intro e he
    have h1 : mget ((after ops).hash k) e.1 = some e.2 := (mem_mget hn).1 he
    rw [hg] at h1
    cases hl : latest k e.1 ops with
    | none => simp [hl] at h1
    | some r =>
      simp only [hl, Option.map_some, Option.some.injEq] at h1
      exact ⟨r, rfl, h1.symm, latest_inv k e.1 ops r hl⟩
  refine ⟨((after ops).hash k).map (fun e => (readRecord k e.2).getD zero), ?_, ?_, ?_⟩
  · unfold readListing list
    rw [parse_jsonText]
    have : ∀ l : List (List Char × Bytes), (∀ e ∈ l, ∃ r, latest k e.1 ops = some r ∧ e.2 = storedText k r ∧ r.nodeID = e.1 ∧ Fits k r) →
        (l.map (fun e => Json.obj (serviceMembers k ((readRecord k e.2).getD zero)))).mapM
          (readElem k) =
        some ((l.map (fun e => (readRecord k e.2).getD zero)).map some) := by
      intro l
      induction l with
      | nil => intro _; rfl
      | cons e l ih =>
        intro h
        obtain ⟨r, _, he, _, hf⟩ := h e (by simp)
        have ih := ih (fun e he => h e (by simp [he]))
        simp only [List.map_cons, List.mapM_cons, ih, he, readRecord_stored k r hf, Option.getD_some, readElem, unmarshal_service k r hf]
        rfl
    simpa using this _ hst
  · have : (((after ops).hash k).map (fun e => (readRecord k e.2).getD zero)).map (·.nodeID) = mkeys ((after ops).hash k) := by
      rw [List.map_map]
      apply List.map_congr_left
      intro e he
      obtain ⟨r, _, h2, h3, hf⟩ := hst e he
      simp [Function.comp, h2, readRecord_stored k r hf, h3]
    rw [this]
    exact hn
  · intro r
    rw [List.mem_map]
    constructor
    · rintro ⟨e, he, rfl⟩
      obtain ⟨r, h1, h2, h3, hf⟩ := hst e he
      rw [h2, readRecord_stored k r hf, Option.getD_some, h3]
      exact h1
    · intro h
      have hf := (latest_inv k _ ops r h).2
      have h1 := hg r.nodeID
      rw [h, Option.map_some] at h1
      exact ⟨_, (mem_mget hn).2 h1, by simp [readRecord_stored k r hf]⟩

/-- C65, end to end: what a node registers is what every node reads, all members unchanged, until the node registers again or the
records are deleted. -/
theorem C65_registered_is_read (before later : List Op) (k : Kind) (r : Record) (hr : Fits k r)
    (hl : ∀ op ∈ later, (∀ body r', op = .add k body → readBody k body = some r' → r'.nodeID ≠ r.nodeID) ∧ op ≠ .deleteAll k) :
    ∃ l : List Record, readListing k (list (after (before ++ [.add k (registration k r)] ++ later)) k) = some (l.map some) ∧
      ∀ r', r' ∈ l ∧ r'.nodeID = r.nodeID ↔ r' = r := by
  have hlast : latest k r.nodeID (before ++ [.add k (registration k r)] ++ later) = some r := by
    unfold latest
    rw [List.foldl_append, List.foldl_append, List.foldl_cons, List.foldl_nil]
    simp only [note, readBody_registration k r hr, and_self, ↓reduceIte]
    have : ∀ (l : List Op), (∀ op ∈ l, (∀ body r', op = .add k body → readBody k body = some r' → r'.nodeID ≠ r.nodeID) ∧ op ≠ .deleteAll k) →
        l.foldl (note k r.nodeID) (some r) = some r := by
      intro l
      induction l with
      | nil => intro _; rfl
      | cons op l ih =>
        intro h
        rw [List.foldl_cons]
        obtain ⟨h1, h2⟩ := h op (by simp)
        have ih := ih (fun op ho => h op (by simp [ho]))
        cases op with
        | deleteAll k' =>
          have : k' ≠ k := fun e => h2 (by rw [e])
          simp only [note, this, ↓reduceIte]
          exact ih
        | add k' body =>
          cases hrd : readBody k' body with
          | none => simpa [note, hrd] using ih
          | some r' =>
            have : ¬ (k' = k ∧ r'.nodeID = r.nodeID) := by
              rintro ⟨rfl, e⟩
              exact h1 body r' rfl hrd e
            simp only [note, hrd, this, ↓reduceIte]
            exact ih
    exact this later hl
  obtain ⟨l, h1, h2, h3⟩ := C65_listing (before ++ [.add k (registration k r)] ++ later) k
  refine ⟨l, h1, fun r' => ⟨?_, ?_⟩⟩
  · rintro ⟨hm, he⟩
    have := (h3 r').1 hm
    rw [he, hlast] at this
    injection this with this
    exact this.symm
  · rintro rfl
    exact ⟨(h3 r').2 hlast, rfl⟩

/-- A registration with some empty members. -/
def exRecord : Record :=
  ⟨"0a".toList, "f1x".toList, [], "01<&".toList, "AU".toList, "gw:9012".toList, [], "é:80".toList, []⟩

/-- A history with a deletion, a change of a registration, and a body that is not a record. -/
def exOps : List Op :=
  [.add .gateway (registration .gateway { exRecord with address := [] }), .deleteAll .gateway, .add .gateway [1, 2],
    .add .provider (registration .provider exRecord), .add .gateway (registration .gateway { exRecord with regionCode := [] }),
    .add .gateway (registration .gateway exRecord)]

example : latest .gateway exRecord.nodeID exOps = some exRecord ∧ latest .gateway [] exOps = none := by decide +kernel
example : Fits .gateway exRecord ∧ Fits .provider exRecord := ⟨by simp [Fits], by simp [Fits, exRecord]⟩

/-- C65: deleting removes every record of the kind, whoever registered it, and nothing of the other kind. -/
theorem C65_delete_all (ops : List Op) (k k' : Kind) :
    list (deleteAll (after ops) k) k = list ⟨[], []⟩ k ∧ (k' ≠ k → list (deleteAll (after ops) k) k' = list (after ops) k') := by
  refine ⟨?_, fun h => ?_⟩
  · unfold list
    rw [hash_deleteAll, if_pos rfl]
    cases k <;> rfl
  · unfold list
    rw [hash_deleteAll, if_neg (fun e => h e.symm)]

/-- C65: a body that does not begin with a record is refused and changes nothing; one that is a record is answered with a text of that record. -/
theorem C65_reply (s : Service) (k : Kind) (body : Bytes) :
    (readBody k body = none → add s k body = (s, .error)) ∧
    (∀ r, readBody k body = some r → ∃ b, (add s k body).2 = .ok b ∧ readRecord k b = some r) ∧
    (∀ r, readRecord k body = some r → readBody k body = some r) := by
  refine ⟨fun h => by simp [add, h], fun r h => ⟨storedText k r, by simp [add, h], ?_⟩, fun r h => readBody_of_record k body r h⟩
  exact readRecord_stored k r (readBody_fits k body r h)

/-- C65: what follows a record does not count.  A body is not refused because of what comes after the record: whatever that is, also if it is
another record, it is left out without a word. -/
theorem C65_rest_ignored (s : Service) (k : Kind) (r : Record) (hr : Fits k r) (rest : List Char) :
    add s k (registration k r ++ utf8Bytes rest) = add s k (registration k r) ∧
    ∃ b, (add s k (registration k r ++ utf8Bytes rest)).2 = .ok b ∧ readRecord k b = some r := by
  unfold add
  rw [readBody_registration_more k r hr rest, readBody_registration k r hr]
  exact ⟨rfl, _, rfl, readRecord_stored k r hr⟩

/-- The text after it may be nothing that can be read. -/
example : parseJson (render (.obj (members .gateway exRecord)) ++ "}{".toList) = none := by decide +kernel

/-- An element of a listing: a record, or `null`. -/
def element (k : Kind) : Option Record → Json
  | none => .null
  | some r => .obj (members k r)

/-- Reading a listing: the elements are read in order, `null` elements are nil pointers, and `null` for the whole is an empty list. -/
theorem C92_listing_read (k : Kind) (l : List (Option Record)) (h : ∀ r, some r ∈ l → Fits k r) :
    readListing k (jsonText (.arr (l.map (element k)))) = some l ∧ readListing k (jsonText .null) = some [] := by
  constructor
  · unfold readListing
    rw [parse_jsonText]
    simp only [Option.bind_eq_bind, Option.bind_some]
    induction l with
    | nil => rfl
    | cons x l ih =>
      have ih := ih (fun r hr => h r (List.mem_cons_of_mem _ hr))
      have hx : readElem k (element k x) = some x := by
        cases x with
        | none => rfl
        | some r =>
          have := unmarshal_members k r (h r List.mem_cons_self)
          simp only [element, readElem, this, Option.map_some]
      simp only [List.map_cons, List.mapM_cons, hx, ih, Option.bind_eq_bind, Option.bind_some]
      rfl
  · unfold readListing
    rw [parse_jsonText]
    rfl

example : readListing .gateway (jsonText (.arr [.null])) = some [none] := (C92_listing_read .gateway [none] (by simp)).1

end FcRetrieval.Register
