import Verif.Data.Schema

/-!
# C63: the schema generator
-/

namespace Verif.Props
open Verif.Go Verif.Data

/-! ## What a schema is for: it accepts records -/

/-- A record as it is stored: JSON, with times and floating-point numbers opaque. -/
inductive Value
  | text (b : Bytes) | int (i : Int) | float (bits : Nat) | time (t : Int) | null
  | array (vs : List Value)
  | object (ms : List (Bytes × Value))

/-- Values of a Go type as JSON. Any field may be left out (`omitempty`); a nil pointer is null. (A nil slice is stored as null as well; whether BigQuery takes this for an
empty repeated column is not considered here.) -/
inductive HasType : GoType → Value → Prop
  | string (b : Bytes) : HasType .string (.text b)
  | integer (i : Int) : HasType .integer (.int i)
  | float (n : Nat) : HasType .float (.float n)
  | timestamp (t : Int) : HasType .timestamp (.time t)
  | nil (t : GoType) : HasType (.pointer t) .null
  | pointer (t : GoType) (v : Value) : HasType t v → HasType (.pointer t) v
  | slice (t : GoType) (vs : List Value) : (∀ v ∈ vs, HasType t v) → HasType (.slice t) (.array vs)
  | struct (fs : List (Bytes × GoType)) (ms : List (Bytes × Value)) (type : Bytes × Value → GoType) :
      (∀ m ∈ ms, (m.1, type m) ∈ fs) → (∀ m ∈ ms, HasType (type m) m.2) → HasType (.struct fs) (.object ms)

def colName : Column → Bytes
  | .mk n _ _ _ _ => n
def colRequired : Column → Bool
  | .mk _ _ _ r _ => r

/-- A column takes a value. In a record every member needs a column of its name, and every required column a member. -/
inductive Accepts : Column → Value → Prop
  | null (n : Bytes) (t : ColType) (cs : List Column) : Accepts (.mk n t false false cs) .null
  | text (n : Bytes) (r : Bool) (cs : List Column) (b : Bytes) : Accepts (.mk n .string false r cs) (.text b)
  | int (n : Bytes) (r : Bool) (cs : List Column) (i : Int) : Accepts (.mk n .integer false r cs) (.int i)
  | float (n : Bytes) (r : Bool) (cs : List Column) (b : Nat) : Accepts (.mk n .float false r cs) (.float b)
  | time (n : Bytes) (r : Bool) (cs : List Column) (t : Int) : Accepts (.mk n .timestamp false r cs) (.time t)
  | array (n : Bytes) (t : ColType) (r : Bool) (cs : List Column) (vs : List Value) : (∀ v ∈ vs, Accepts (.mk n t false true cs) v) →
      Accepts (.mk n t true r cs) (.array vs)
  | record (n : Bytes) (r : Bool) (cs : List Column) (ms : List (Bytes × Value)) (column : Bytes × Value → Column) :
      (∀ m ∈ ms, column m ∈ cs ∧ colName (column m) = m.1) → (∀ m ∈ ms, Accepts (column m) m.2) → (∀ c ∈ cs, colRequired c = true → ∃ m ∈ ms, m.1 = colName c) →
      Accepts (.mk n .record false r cs) (.object ms)

/-- A table with this schema takes this record. -/
def Loads (schema : List Column) (v : Value) : Prop := Accepts (.mk [] .record false true schema) v

mutual
/-- The names of all columns, with those of the enclosing records. -/
def colPaths : Column → List (List Bytes)
  | .mk n _ _ _ cs => [n] :: (allColPaths cs).map (n :: ·)
def allColPaths : List Column → List (List Bytes)
  | [] => []
  | c :: cs => colPaths c ++ allColPaths cs
end

mutual
/-- The names of all fields within a type, with those of the enclosing fields. -/
def typePaths : GoType → List (List Bytes)
  | .pointer t => typePaths t
  | .slice t => typePaths t
  | .struct fs => fieldPaths fs
  | _ => []
def fieldPaths : List (Bytes × GoType) → List (List Bytes)
  | [] => []
  | (n, t) :: fs => [n] :: (typePaths t).map (n :: ·) ++ fieldPaths fs
end

/-! ## Inference -/

theorem removeRequired_eq (cs : List Column) : removeRequired cs = cs.map removeRequired1 := by
  induction cs with
  | nil => simp [removeRequired]
  | cons c cs ih => simp [removeRequired, ih]

theorem not_required {cs : List Column} {c : Column} (h : c ∈ removeRequired cs) : colRequired c = false := by
  rw [removeRequired_eq] at h
  obtain ⟨⟨n, t, rep, r, cs⟩, -, rfl⟩ := List.mem_map.1 h
  simp [removeRequired1, colRequired]

theorem inferFields_cons {n : Bytes} {t : GoType} {fs : List (Bytes × GoType)} {cs : List Column} (h : inferFields ((n, t) :: fs) = some cs) :
    ∃ c cs', inferField n t = some c ∧ inferFields fs = some cs' ∧ cs = c :: cs' := by
  rw [inferFields] at h
  cases h1 : inferField n t with
  | none => simp [h1] at h
  | some c =>
    cases h2 : inferFields fs with
    | none => simp [h1, h2] at h
    | some cs' =>
      simp [h1, h2] at h
      exact ⟨c, cs', rfl, rfl, h.symm⟩

private theorem inferFields_mem {fs : List (Bytes × GoType)} {cs : List Column} (h : inferFields fs = some cs) {n : Bytes} {t : GoType} (hm : (n, t) ∈ fs) :
    ∃ c ∈ cs, inferField n t = some c := by
  induction fs generalizing cs with
  | nil => cases hm
  | cons f fs ih =>
    obtain ⟨c, cs', h1, h2, rfl⟩ := inferFields_cons h
    rcases List.mem_cons.1 hm with rfl | hm
    · exact ⟨c, List.mem_cons_self .., h1⟩
    · obtain ⟨c', h3, h4⟩ := ih h2 hm
      exact ⟨c', List.mem_cons_of_mem _ h3, h4⟩

theorem infer_name {n : Bytes} {t : GoType} {c : Column} (h : inferField n t = some c) : colName c = n := by
  unfold inferField at h
  split at h <;> first | (cases h; rfl) | (simp at h; obtain ⟨_, -, rfl⟩ := h; rfl) | simp at h

private theorem accepts_required {n : Bytes} {t : ColType} {cs : List Column} {v : Value} (h : Accepts (.mk n t false false cs) v) (hv : v ≠ .null) :
    Accepts (.mk n t false true cs) v := by
  cases h with
  | null => exact absurd rfl hv
  | text => exact .text ..
  | int => exact .int ..
  | float => exact .float ..
  | time => exact .time ..
  | record _ _ _ ms column h1 h2 h3 => exact .record _ _ _ _ column h1 h2 h3

private theorem accepts_of_type {t : GoType} {v : Value} (h : HasType t v) : ∀ (n : Bytes) (c : Column), inferField n t = some c → Accepts (removeRequired1 c) v := by
  induction h with
  | string b => intro n c h; simp [inferField] at h; subst h; exact .text ..
  | integer b => intro n c h; simp [inferField] at h; subst h; exact .int ..
  | float b => intro n c h; simp [inferField] at h; subst h; exact .float ..
  | timestamp b => intro n c h; simp [inferField] at h; subst h; exact .time ..
  | nil t =>
    intro n c h
    cases t <;> simp [inferField] at h
    obtain ⟨cs, -, rfl⟩ := h
    exact .null ..
  | pointer t v hv ih =>
    intro n c h
    cases t <;> simp [inferField] at h
    obtain ⟨cs, h1, rfl⟩ := h
    exact ih n (.mk n .record false true cs) (by simp [inferField, h1])
  | slice t vs hv ih =>
    intro n c h
    have hnull : ∀ v ∈ vs, v ≠ .null := by
      intro v hm hn
      subst hn
      have := hv _ hm
      cases this with
      | nil => simp [inferField] at h
      | pointer => simp [inferField] at h
    cases t <;> simp [inferField] at h
    case string => subst h; exact .array _ _ _ _ _ fun v hm => accepts_required (ih v hm n (.mk n .string false true []) (by simp [inferField])) (hnull v hm)
    case integer => subst h; exact .array _ _ _ _ _ fun v hm => accepts_required (ih v hm n (.mk n .integer false true []) (by simp [inferField])) (hnull v hm)
    case float => subst h; exact .array _ _ _ _ _ fun v hm => accepts_required (ih v hm n (.mk n .float false true []) (by simp [inferField])) (hnull v hm)
    case timestamp => subst h; exact .array _ _ _ _ _ fun v hm => accepts_required (ih v hm n (.mk n .timestamp false true []) (by simp [inferField])) (hnull v hm)
    case struct fs =>
      obtain ⟨cs, h1, rfl⟩ := h
      exact .array _ _ _ _ _ fun v hm => accepts_required (ih v hm n (.mk n .record false true cs) (by simp [inferField, h1])) (hnull v hm)
  | struct fs ms type h1 h2 ih =>
    intro n c h
    simp [inferField] at h
    obtain ⟨cs, hc, rfl⟩ := h
    have key : ∀ m, ∃ c, m ∈ ms → c ∈ cs ∧ inferField m.1 (type m) = some c := by
      intro m
      by_cases hm : m ∈ ms
      · obtain ⟨c, h3, h4⟩ := inferFields_mem hc (h1 m hm)
        exact ⟨c, fun _ => ⟨h3, h4⟩⟩
      · exact ⟨.mk [] .string false false [], fun h => absurd h hm⟩
    obtain ⟨col, hcol⟩ := Classical.axiomOfChoice key
    refine .record _ _ _ _ (fun m => removeRequired1 (col m)) ?_ ?_ ?_
    · intro m hm
      refine ⟨?_, ?_⟩
      · rw [removeRequired_eq]; exact List.mem_map_of_mem (hcol m hm).1
      · have := infer_name (hcol m hm).2
        revert this
        cases col m with
        | mk n t rep r cs => simp [removeRequired1, colName]
    · exact fun m hm => ih m hm _ _ (hcol m hm).2
    · intro c hc hr
      rw [not_required hc] at hr
      cases hr

/-- C63: whatever structure the schema is inferred from, it takes every value of it. -/
theorem C63_loads (t : GoType) (schema : List Column) (h : inferSchema t = some schema) (v : Value) (hv : HasType t v) : Loads (removeRequired schema) v := by
  cases t <;> simp [inferSchema] at h
  have := accepts_of_type hv [] (.mk [] .record false true schema) (by simp [inferField, h])
  refine accepts_required this ?_
  rintro rfl
  cases hv

mutual
private theorem paths_field (n : Bytes) : ∀ (t : GoType) (c : Column), inferField n t = some c → colPaths (removeRequired1 c) = [n] :: (typePaths t).map (n :: ·)
  | .string, c, h | .integer, c, h | .float, c, h | .timestamp, c, h => by
    simp [inferField] at h; subst h; simp [removeRequired1, removeRequired, colPaths, allColPaths, typePaths]
  | .unsupported, c, h => by simp [inferField] at h
  | .struct fs, c, h => by
    simp [inferField] at h
    obtain ⟨cs, h1, rfl⟩ := h
    simp [removeRequired1, colPaths, typePaths, paths_fields fs cs h1]
  | .pointer (.struct fs), c, h => by
    simp [inferField] at h
    obtain ⟨cs, h1, rfl⟩ := h
    simp [removeRequired1, colPaths, typePaths, paths_fields fs cs h1]
  | .pointer .string, c, h | .pointer .integer, c, h | .pointer .float, c, h | .pointer .timestamp, c, h | .pointer .unsupported, c, h | .pointer (.pointer _), c, h
  | .pointer (.slice _), c, h => by simp [inferField] at h
  | .slice .string, c, h | .slice .integer, c, h | .slice .float, c, h | .slice .timestamp, c, h => by
    simp [inferField] at h; subst h; simp [removeRequired1, removeRequired, colPaths, allColPaths, typePaths]
  | .slice (.struct fs), c, h => by
    simp [inferField] at h
    obtain ⟨cs, h1, rfl⟩ := h
    simp [removeRequired1, colPaths, typePaths, paths_fields fs cs h1]
  | .slice .unsupported, c, h | .slice (.pointer _), c, h | .slice (.slice _), c, h => by simp [inferField] at h

private theorem paths_fields : ∀ (fs : List (Bytes × GoType)) (cs : List Column), inferFields fs = some cs → allColPaths (removeRequired cs) = fieldPaths fs
  | [], cs, h => by simp [inferFields] at h; subst h; simp [removeRequired, allColPaths, fieldPaths]
  | (n, t) :: fs, cs, h => by
    obtain ⟨c, cs', h1, h2, rfl⟩ := inferFields_cons h
    simp [removeRequired, allColPaths, fieldPaths, paths_field n t c h1, paths_fields fs cs' h2]
end

/-- C63: the inferred schema has exactly the fields of the structure as columns, at every depth and in order. -/
theorem C63_paths (t : GoType) (schema : List Column) (h : inferSchema t = some schema) : allColPaths (removeRequired schema) = typePaths t := by
  cases t <;> simp [inferSchema] at h
  rw [paths_fields _ _ h, typePaths]

/-! ## The generator -/

private theorem runs_generate {row : GoType} {file : Bytes} {k : Prog genSig GenExit} {evs : List (Event genSig)} {x : GenExit} (h : Prog.Runs (generate row file k) evs x) :
    (x ≠ .ok ∧ (evs = [] ∨ ∃ sch m, inferSchema row = some sch ∧ evs = [.call (.writeFile file (removeRequired sch)) (.panic m)])) ∨
    ∃ sch r evs', inferSchema row = some sch ∧ evs = .call (.writeFile file (removeRequired sch)) (.ok r) :: evs' ∧ Prog.Runs k evs' x := by
  unfold generate at h
  split at h
  · cases h; exact .inl ⟨by simp, .inl rfl⟩
  · rename_i sch hs
    cases h with
    | call q k r evs b h =>
      rcases r with r | m
      · exact .inr ⟨sch, r, evs, hs, rfl, h⟩
      · cases h; exact .inl ⟨by simp, .inr ⟨sch, m, hs, rfl⟩⟩

section
variable (tcp bbr : List (Bytes × GoType)) (f7 f5 : Bytes) (evs : List (Event genSig)) (x : GenExit)

theorem written (h : Prog.Runs (generateSchemas tcp bbr f7 f5) evs x) (file : Bytes) (schema : List Column) (r : Outcome (Option Err))
    (hm : .call (.writeFile file schema) r ∈ evs) : ∃ sch, inferSchema (ndt7Result tcp bbr) = some sch ∧ schema = removeRequired sch := by
  have one : ∀ {sch : List Column} {f : Bytes} {r' : Outcome (Option Err)}, inferSchema (ndt7Result tcp bbr) = some sch →
      (Event.call (GenCall.writeFile file schema) r : Event genSig) = .call (.writeFile f (removeRequired sch)) r' →
      ∃ sch, inferSchema (ndt7Result tcp bbr) = some sch ∧ schema = removeRequired sch := by
    intro sch f r' h1 h2
    simp only [Event.call.injEq, GenCall.writeFile.injEq] at h2
    exact ⟨sch, h1, h2.1.2⟩
  rcases runs_generate h with ⟨-, rfl | ⟨sch, m, h1, rfl⟩⟩ | ⟨sch, r1, e1, h1, rfl, h2⟩
  · cases hm
  · exact one h1 (List.mem_singleton.1 hm)
  · rcases List.mem_cons.1 hm with hm | hm
    · exact one h1 hm
    · rcases runs_generate h2 with ⟨-, rfl | ⟨sch, m, h1, rfl⟩⟩ | ⟨sch, r1, e1, h1, rfl, h3⟩
      · cases hm
      · exact one h1 (List.mem_singleton.1 hm)
      · rcases List.mem_cons.1 hm with hm | hm
        · exact one h1 hm
        · cases h3; cases hm

/-- C63, the half that holds: what is written as the schema of ndt7 takes every ndt7 result and has exactly its fields. -/
theorem C63_ndt7_schema_partial (h : Prog.Runs (generateSchemas tcp bbr f7 f5) evs x) (schema : List Column) (r : Outcome (Option Err))
    (hm : .call (.writeFile f7 schema) r ∈ evs) :
    (∀ v, HasType (ndt7Result tcp bbr) v → Loads schema v) ∧ allColPaths schema = typePaths (ndt7Result tcp bbr) := by
  obtain ⟨sch, h1, rfl⟩ := written tcp bbr f7 f5 evs x h f7 schema r hm
  exact ⟨fun v hv => C63_loads _ _ h1 v hv, C63_paths _ _ h1⟩

/-- C63: a generator that ends normally has tried to write both files, the one of ndt7 first. -/
theorem C63_both (h : Prog.Runs (generateSchemas tcp bbr f7 f5) evs .ok) :
    ∃ s7 s5 r7 r5, evs = [.call (.writeFile f7 s7) (.ok r7), .call (.writeFile f5 s5) (.ok r5)] := by
  rcases runs_generate h with ⟨h, -⟩ | ⟨sch, r1, e1, -, rfl, h2⟩
  · exact absurd rfl h
  · rcases runs_generate h2 with ⟨h, -⟩ | ⟨sch', r2, e2, -, rfl, h3⟩
    · exact absurd rfl h
    · cases h3; exact ⟨_, _, _, _, rfl⟩

/-- The schema of ndt7 results has no columns for the parts of ndt5 results. -/
theorem no_column {tcp bbr : List (Bytes × GoType)} {sch : List Column} (h : inferSchema (ndt7Result tcp bbr) = some sch) {c : Column} (h5 : c ∈ removeRequired sch) :
    ¬ (colName c = str "Control" ∨ colName c = str "C2S" ∨ colName c = str "S2C") := by
  have hp := C63_paths _ _ h
  intro hc
  have top : ∀ (cs : List Column) (c : Column), c ∈ cs → [colName c] ∈ allColPaths cs := by
    intro cs c hm
    induction cs with
    | nil => cases hm
    | cons d cs ih =>
      rw [allColPaths]
      rcases List.mem_cons.1 hm with rfl | hm
      · cases c; simp [colPaths, colName]
      · exact List.mem_append_right _ (ih hm)
  have h7 := top _ _ h5
  rw [hp] at h7
  have only : ∀ (n : Bytes) (fs : List (Bytes × GoType)), [n] ∈ fieldPaths fs → n ∈ fs.map Prod.fst := by
    intro n fs
    induction fs with
    | nil => simp [fieldPaths]
    | cons f fs ih =>
      obtain ⟨k, t⟩ := f
      have hne : [] ∉ typePaths t := by
        have aux : ∀ (fs : List (Bytes × GoType)), [] ∉ fieldPaths fs := by
          intro fs
          induction fs with
          | nil => simp [fieldPaths]
          | cons f fs ih => obtain ⟨k, t⟩ := f; simp [fieldPaths, ih]
        have : ∀ t : GoType, [] ∉ typePaths t := by
          intro t
          induction t using GoType.rec (motive_2 := fun _ => True) (motive_3 := fun _ => True) with
          | struct fs => simp [typePaths, aux]
          | pointer t ih => simpa [typePaths] using ih
          | slice t ih => simpa [typePaths] using ih
          | _ => first | trivial | simp [typePaths]
        exact this t
      simp only [fieldPaths, List.cons_append, List.mem_cons, List.mem_append, List.mem_map, List.map_cons, List.cons.injEq]
      rintro (⟨rfl, -⟩ | ⟨p, hp, rfl, rfl⟩ | h)
      · exact .inl rfl
      · exact absurd hp hne
      · exact .inr (List.mem_map.1 (ih h))
  have h8 := only _ _ h7
  revert h8
  rcases hc with hc | hc | hc <;> rw [hc] <;> simp only [resultHead, List.map_append, List.map_cons, List.map_nil] <;> decide

/-- C63: the schema written for ndt5 takes no ndt5 result: every record of a control channel has a member `Control`, for which there is no column. -/
theorem C63_ndt5_rejected (h : Prog.Runs (generateSchemas tcp bbr f7 f5) evs x) (schema : List Column) (r : Outcome (Option Err))
    (hm : .call (.writeFile f5 schema) r ∈ evs) (ms : List (Bytes × Value)) (m : Bytes × Value) (hmem : m ∈ ms) (hc : m.1 = str "Control" ∨ m.1 = str "C2S" ∨ m.1 = str "S2C") :
    ¬ Loads schema (.object ms) := by
  obtain ⟨sch, h1, rfl⟩ := written tcp bbr f7 f5 evs x h f5 schema r hm
  intro hl
  cases hl with
  | record _ _ _ _ column h2 h3 h4 =>
    obtain ⟨h5, h6⟩ := h2 m hmem
    exact no_column h1 h5 (h6 ▸ hc)

end

private def someTcp : List (Bytes × GoType) := [(str "State", .integer), (str "RTT", .integer)]
private def someBbr : List (Bytes × GoType) := [(str "BW", .integer), (str "MinRTT", .integer)]

/-- C63 as stated is false: the generator writes a schema for ndt5 that does not take ndt5 results. -/
theorem C63_ndt5_schema_false : ¬ ∀ (tcp bbr : List (Bytes × GoType)) (f7 f5 : Bytes) (evs : List (Event genSig)) (x : GenExit),
    Prog.Runs (generateSchemas tcp bbr f7 f5) evs x → ∀ schema r, .call (.writeFile f5 schema) r ∈ evs → ∀ v, HasType (ndt5Result tcp) v → Loads schema v := by
  intro h
  have hs : inferSchema (ndt7Result someTcp someBbr) ≠ none := by
    simp [ndt7Result, inferSchema, resultHead, archival7, measurement, someTcp, someBbr, inferFields, inferField, appInfo, connectionInfo, nameValue]
  obtain ⟨sch, hs⟩ := Option.ne_none_iff_exists'.1 hs
  have hrun : Prog.Runs (generateSchemas someTcp someBbr (str "ndt7.json") (str "ndt5.json"))
      [.call (.writeFile (str "ndt7.json") (removeRequired sch)) (.ok none), .call (.writeFile (str "ndt5.json") (removeRequired sch)) (.ok none)] .ok := by
    unfold generateSchemas generate
    rw [hs]
    exact .call (S := genSig) _ _ (.ok none) _ _ (.call (S := genSig) _ _ (.ok none) _ _ (.ret _))
  have hv : HasType (ndt5Result someTcp) (.object [(str "Control", .object [(str "UUID", .text (str "u1"))])]) := by
    refine .struct _ _ (fun _ => .pointer controlData) ?_ ?_
    · intro m hm
      rw [List.mem_singleton] at hm
      subst hm
      simp [resultHead]
    · intro m hm
      rw [List.mem_singleton] at hm
      subst hm
      refine .pointer _ _ (.struct _ _ (fun _ => .string) ?_ ?_)
      · intro m hm
        rw [List.mem_singleton] at hm
        subst hm
        simp
      · intro m hm
        rw [List.mem_singleton] at hm
        subst hm
        exact .string _
  have hm : (Event.call (GenCall.writeFile (str "ndt5.json") (removeRequired sch)) (.ok none) : Event genSig) ∈
      ([.call (.writeFile (str "ndt7.json") (removeRequired sch)) (.ok none), .call (.writeFile (str "ndt5.json") (removeRequired sch)) (.ok none)] : List (Event genSig)) :=
    List.mem_cons_of_mem _ (List.mem_cons_self ..)
  exact C63_ndt5_rejected someTcp someBbr _ _ _ _ hrun _ _ hm _ _ (List.mem_singleton.2 rfl) (.inl rfl) (h _ _ _ _ _ _ hrun _ _ hm _ hv)

/-- C63: the generator ends normally even if neither file could be written. -/
theorem C63_write_errors_ignored (tcp bbr : List (Bytes × GoType)) (f7 f5 : Bytes) (e : Err) (hs : inferSchema (ndt7Result tcp bbr) ≠ none) :
    ∃ s7 s5, Prog.Runs (generateSchemas tcp bbr f7 f5) [.call (.writeFile f7 s7) (.ok (some e)), .call (.writeFile f5 s5) (.ok (some e))] .ok := by
  obtain ⟨sch, hs⟩ := Option.ne_none_iff_exists'.1 hs
  refine ⟨removeRequired sch, removeRequired sch, ?_⟩
  unfold generateSchemas generate
  rw [hs]
  exact .call (S := genSig) _ _ (.ok (some e)) _ _ (.call (S := genSig) _ _ (.ok (some e)) _ _ (.ret _))

end Verif.Props
