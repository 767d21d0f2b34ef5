import Verif.Spec.Configuration
import Verif.Proofs.Xcrepo
import Verif.Go.Exact
/-
Property C41 (configuration). `parse` (JSON syntax) and `parseFloat` are arbitrary.
-/
set_option linter.unusedSectionVars false
namespace Goslide.Props
open Spec Configuration
variable {F : Type} [GoFloat F]

theorem mem_allFields (f : Field) : f ∈ allFields := by cases f <;> decide

theorem foldNames_nodup : (allFields.map (fun f => foldName f.name)).Nodup := by decide +kernel

theorem foldName_inj (f g : Field) (h : foldName f.name = foldName g.name) : f = g := by
  have key : ∀ l : List Field, (l.map (fun f => foldName f.name)).Nodup → f ∈ l → g ∈ l → f = g := by
    intro l
    induction l with
    | nil => intro _ hf; simp at hf
    | cons x l ih =>
      intro hn hf hg
      simp only [List.map_cons, List.nodup_cons, List.mem_map, not_exists, not_and] at hn
      rcases List.mem_cons.mp hf with hf | hf <;> rcases List.mem_cons.mp hg with hg | hg
      · rw [hf, hg]
      · exact absurd (h.symm.trans (by rw [hf])) (hn.1 g hg)
      · exact absurd (h.trans (by rw [hg])) (hn.1 f hf)
      · exact ih hn.2 hf hg
  exact key allFields foldNames_nodup (mem_allFields f) (mem_allFields g)

theorem fieldOf_iff (key : String) (f : Field) : fieldOf key = some f ↔ foldName key = foldName f.name := by
  unfold fieldOf
  constructor
  · intro h
    have := List.find?_some h
    simp only [beq_iff_eq] at this
    exact this.symm
  · intro h
    cases hf : allFields.find? (fun g => foldName g.name == foldName key) with
    | none =>
      have := List.find?_eq_none.mp hf f (mem_allFields f)
      simp [h] at this
    | some g =>
      have := List.find?_some hf
      simp only [beq_iff_eq] at this
      rw [foldName_inj g f (this.trans h)]

theorem get_set_ne (c : Config F) (f g : Field) (v : Val F) (h : f ≠ g) : (c.set f v).get g = c.get g := by
  cases f <;> cases v <;> first | rfl | (cases g <;> first | rfl | exact absurd rfl h)

theorem get_set_same (c : Config F) (f : Field) (v : Val F) (h : SameType v (c.get f)) : (c.set f v).get f = v := by
  cases f <;> cases v <;> first | rfl | exact absurd h id

theorem get_type (c d : Config F) (f : Field) : SameType (c.get f) (d.get f) := by
  cases f <;> exact trivial

theorem default_type (c : Config F) (f : Field) : SameType (defaultOf f) (c.get f) := by
  cases f <;> exact trivial

theorem type_default (c : Config F) (f : Field) : SameType (c.get f) (defaultOf f) := by
  cases f <;> exact trivial

theorem SameType.trans' {a b c : Val F} (h1 : SameType a b) (h2 : SameType b c) : SameType a c := by
  cases a <;> cases b <;> first | exact absurd h1 id | (cases c <;> first | exact absurd h2 id | exact trivial)

theorem decodeInts_gives (l : List Json) (ns old : List Int)
    (h : All2 (fun j n => ∃ lit, j = .num lit ∧ WritesInt lit n) l ns) : decodeInts l old = some ns := by
  induction h generalizing old with
  | nil => rfl
  | cons h _ ih =>
    obtain ⟨lit, rfl, hw⟩ := h
    rw [decodeInts, (atoi_iff _ _).mpr hw, Option.bind_some, ih]; rfl

theorem decodeFloats_gives (pf : Bytes → Option F) (l : List Json) (ns old : List F)
    (h : All2 (fun j n => ∃ lit, j = .num lit ∧ pf lit = some n) l ns) : decodeFloats pf l old = some ns := by
  induction h generalizing old with
  | nil => rfl
  | cons h _ ih =>
    obtain ⟨lit, rfl, hw⟩ := h
    rw [decodeFloats, hw, Option.bind_some, ih]; rfl

theorem decode_gives (pf : Bytes → Option F) (j : Json) (v old : Val F) (h : Gives pf j v) (ht : SameType v old) :
    decode pf old j = some v := by
  cases h with
  | int lit n hw => cases old <;> first | exact absurd ht id | (unfold decode; simp [(atoi_iff _ _).mpr hw])
  | int8 lit n hw h1 h2 =>
    cases old <;> first | exact absurd ht id | (unfold decode; simp [(atoi_iff _ _).mpr hw, h1, h2])
  | float lit x hw => cases old <;> first | exact absurd ht id | (unfold decode; simp [hw])
  | str s => cases old <;> first | exact absurd ht id | rfl
  | bool s => cases old <;> first | exact absurd ht id | rfl
  | ints l ns hl => cases old <;> first | exact absurd ht id | (unfold decode; simp [decodeInts_gives _ _ _ hl])
  | floats l ns hl => cases old <;> first | exact absurd ht id | (unfold decode; simp [decodeFloats_gives pf _ _ _ hl])

theorem decodeInts_inv (l : List Json) : ∀ (ns old : List Int), Json.null ∉ l → decodeInts l old = some ns →
    All2 (fun j n => ∃ lit, j = .num lit ∧ WritesInt lit n) l ns := by
  induction l with
  | nil => intro ns old _ h; simp only [decodeInts, Option.some.injEq] at h; subst h; exact All2.nil
  | cons j l ih =>
    intro ns old hn h
    simp only [List.mem_cons, not_or] at hn
    cases j with
    | num lit =>
      rw [decodeInts, Option.bind_eq_some_iff] at h
      obtain ⟨n, h1, h2⟩ := h
      rw [Option.map_eq_some_iff] at h2
      obtain ⟨ms, h2, rfl⟩ := h2
      exact All2.cons ⟨lit, rfl, (atoi_iff _ _).mp h1⟩ (ih _ _ hn.2 h2)
    | null => exact absurd rfl hn.1
    | bool b => simp [decodeInts] at h
    | str b => simp [decodeInts] at h
    | arr b => simp [decodeInts] at h
    | obj b => simp [decodeInts] at h

theorem decodeFloats_inv (pf : Bytes → Option F) (l : List Json) : ∀ (ns old : List F), Json.null ∉ l →
    decodeFloats pf l old = some ns → All2 (fun j n => ∃ lit, j = .num lit ∧ pf lit = some n) l ns := by
  induction l with
  | nil => intro ns old _ h; simp only [decodeFloats, Option.some.injEq] at h; subst h; exact All2.nil
  | cons j l ih =>
    intro ns old hn h
    simp only [List.mem_cons, not_or] at hn
    cases j with
    | num lit =>
      rw [decodeFloats, Option.bind_eq_some_iff] at h
      obtain ⟨n, h1, h2⟩ := h
      rw [Option.map_eq_some_iff] at h2
      obtain ⟨ms, h2, rfl⟩ := h2
      exact All2.cons ⟨lit, rfl, h1⟩ (ih _ _ hn.2 h2)
    | null => exact absurd rfl hn.1
    | bool b => simp [decodeFloats] at h
    | str b => simp [decodeFloats] at h
    | arr b => simp [decodeFloats] at h
    | obj b => simp [decodeFloats] at h

/-- A decoded value is of the right type, and is the one the JSON value denotes. -/
theorem decode_inv (pf : Bytes → Option F) (j : Json) (v old : Val F) (h : decode pf old j = some v) :
    SameType v old ∧ (j ≠ .null → NoNullElement j → Gives pf j v) := by
  cases j with
  | null =>
    refine ⟨?_, fun hn => absurd rfl hn⟩
    cases old <;> (simp only [decode, Option.some.injEq] at h; subst h; exact trivial)
  | bool b =>
    cases old <;> first
      | (simp [decode] at h; done)
      | (simp only [decode, Option.some.injEq] at h; subst h; exact ⟨trivial, fun _ _ => Gives.bool b⟩)
  | str s =>
    cases old <;> first
      | (simp [decode] at h; done)
      | (simp only [decode, Option.some.injEq] at h; subst h; exact ⟨trivial, fun _ _ => Gives.str s⟩)
  | num lit =>
    cases old with
    | int w =>
      simp only [decode, Option.map_eq_some_iff] at h
      obtain ⟨n, h1, rfl⟩ := h
      exact ⟨trivial, fun _ _ => Gives.int lit n ((atoi_iff _ _).mp h1)⟩
    | int8 w =>
      simp only [decode, Option.bind_eq_some_iff] at h
      obtain ⟨n, h1, h2⟩ := h
      by_cases hr : -128 ≤ n ∧ n ≤ 127
      · rw [if_pos hr, Option.some.injEq] at h2
        subst h2
        exact ⟨trivial, fun _ _ => Gives.int8 lit n ((atoi_iff _ _).mp h1) hr.1 hr.2⟩
      · rw [if_neg hr] at h2; simp at h2
    | float w =>
      simp only [decode, Option.map_eq_some_iff] at h
      obtain ⟨n, h1, rfl⟩ := h
      exact ⟨trivial, fun _ _ => Gives.float lit n h1⟩
    | ints w => simp [decode] at h
    | floats w => simp [decode] at h
    | str w => simp [decode] at h
    | bool w => simp [decode] at h
  | arr l =>
    cases old with
    | ints w =>
      simp only [decode, Option.map_eq_some_iff] at h
      obtain ⟨ns, h1, rfl⟩ := h
      exact ⟨trivial, fun _ hn => Gives.ints l ns (decodeInts_inv l ns _ hn h1)⟩
    | floats w =>
      simp only [decode, Option.map_eq_some_iff] at h
      obtain ⟨ns, h1, rfl⟩ := h
      exact ⟨trivial, fun _ hn => Gives.floats l ns (decodeFloats_inv pf l ns _ hn h1)⟩
    | int w => simp [decode] at h
    | int8 w => simp [decode] at h
    | float w => simp [decode] at h
    | str w => simp [decode] at h
    | bool w => simp [decode] at h
  | obj l =>
    cases old <;> simp [decode] at h

theorem assign_other (pf : Bytes → Option F) (f : Field) (kvs : List (String × Json)) : ∀ st : Config F × Bool,
    (∀ kv ∈ kvs, foldName kv.1 ≠ foldName f.name) → (kvs.foldl (assign pf) st).1.get f = st.1.get f := by
  induction kvs with
  | nil => intro st _; rfl
  | cons kv kvs ih =>
    intro st h
    rw [List.foldl_cons, ih _ (fun kv hk => h kv (by simp [hk]))]
    have hne := h kv (by simp)
    unfold assign
    cases hf : fieldOf kv.1 with
    | none => rfl
    | some g =>
      dsimp only
      cases decode pf (st.1.get g) kv.2 with
      | none => rfl
      | some v =>
        apply get_set_ne
        intro e
        subst e
        exact hne ((fieldOf_iff _ _).mp hf)

theorem assign_flag (pf : Bytes → Option F) (kvs : List (String × Json)) : ∀ st : Config F × Bool,
    (kvs.foldl (assign pf) st).2 = true → st.2 = true := by
  induction kvs with
  | nil => intro st h; exact h
  | cons kv kvs ih =>
    intro st h
    have := ih _ h
    unfold assign at this
    cases hf : fieldOf kv.1 with
    | none => rw [hf] at this; exact this
    | some g =>
      rw [hf] at this
      dsimp only at this
      cases hd : decode pf (st.1.get g) kv.2 with
      | none => rw [hd] at this; simp at this
      | some v => rw [hd] at this; exact this

theorem assign_match (pf : Bytes → Option F) (st : Config F × Bool) (kv : String × Json) (f : Field)
    (hkey : foldName kv.1 = foldName f.name) (hok : (assign pf st kv).2 = true) :
    ∃ v, decode pf (st.1.get f) kv.2 = some v ∧ (assign pf st kv).1 = st.1.set f v := by
  unfold assign at hok ⊢
  rw [(fieldOf_iff kv.1 f).mpr hkey] at hok ⊢
  dsimp only at hok ⊢
  cases hd : decode pf (st.1.get f) kv.2 with
  | none => rw [hd] at hok; simp at hok
  | some v => exact ⟨v, rfl, rfl⟩

theorem fromJson_obj (pf : Bytes → Option F) (parse : Bytes → Option Json) (content : Bytes)
    (kvs : List (String × Json)) (cfg : Config F) (hp : parse content = some (.obj kvs))
    (h : fromJsonFile pf parse (some content) = some cfg) :
    (kvs.foldl (assign pf) (Configuration.default, true)).2 = true ∧ (kvs.foldl (assign pf) (Configuration.default, true)).1 = cfg := by
  unfold fromJsonFile at h
  dsimp only at h
  rw [hp] at h
  dsimp only at h
  by_cases hr : (kvs.foldl (assign pf) (Configuration.default, true)).2 = true
  · rw [if_pos hr, Option.some.injEq] at h; exact ⟨hr, h⟩
  · rw [if_neg hr] at h; simp at h

/-- C41, absent fields. If no key of the JSON object names the field (keys are compared without regard
to case), the field keeps its default. -/
theorem C41_absent (parseFloat : Bytes → Option F) (parse : Bytes → Option Json) (content : Bytes)
    (kvs : List (String × Json)) (cfg : Config F) (hp : parse content = some (.obj kvs))
    (h : fromJsonFile parseFloat parse (some content) = some cfg) (f : Field)
    (habs : ∀ kv ∈ kvs, foldName kv.1 ≠ foldName f.name) :
    cfg.get f = defaultOf f := by
  obtain ⟨-, rfl⟩ := fromJson_obj parseFloat parse content kvs cfg hp h
  rw [assign_other parseFloat f kvs _ habs]
  cases f <;> rfl

/-- C41, present fields. If exactly one key names the field and its value is neither `null` nor an array
with `null` elements, the field gets the value that the JSON value denotes. -/
theorem C41_present (parseFloat : Bytes → Option F) (parse : Bytes → Option Json) (content : Bytes)
    (pre post : List (String × Json)) (key : String) (j : Json) (cfg : Config F)
    (hp : parse content = some (.obj (pre ++ (key, j) :: post)))
    (h : fromJsonFile parseFloat parse (some content) = some cfg) (f : Field)
    (hkey : foldName key = foldName f.name)
    (hother : ∀ kv ∈ pre ++ post, foldName kv.1 ≠ foldName f.name)
    (hnull : j ≠ .null) (hel : NoNullElement j) :
    Gives parseFloat j (cfg.get f) := by
  obtain ⟨hok, rfl⟩ := fromJson_obj parseFloat parse content _ cfg hp h
  rw [List.foldl_append, List.foldl_cons] at hok ⊢
  rw [assign_other parseFloat f post _ (fun kv hk => hother kv (by simp [hk]))]
  have hflag := assign_flag parseFloat post _ hok
  obtain ⟨v, hd, hs⟩ := assign_match parseFloat _ (key, j) f hkey hflag
  obtain ⟨h1, h2⟩ := decode_inv parseFloat j v _ hd
  rw [hs, get_set_same _ f v h1]
  exact h2 hnull hel

/-- C41, present fields, the converse direction: what a JSON value denotes is unique for the type of the
field, so C41_present fixes the value. -/
theorem C41_gives_unique (parseFloat : Bytes → Option F) (j : Json) (v w : Val F)
    (h1 : Gives parseFloat j v) (h2 : Gives parseFloat j w) (ht : SameType v w) : v = w := by
  have e1 := decode_gives parseFloat j v w h1 ht
  have e2 := decode_gives parseFloat j w w h2 (by cases w <;> exact trivial)
  rw [e1] at e2
  exact Option.some.inj e2

/-- C41, success. If every key that names a field carries a value of the field's type (or `null`), the
configuration is returned. -/
theorem C41_accepts (parseFloat : Bytes → Option F) (parse : Bytes → Option Json) (content : Bytes)
    (kvs : List (String × Json)) (hp : parse content = some (.obj kvs))
    (hgood : ∀ kv ∈ kvs, ∀ f : Field, foldName kv.1 = foldName f.name →
      kv.2 = .null ∨ ∃ v, Gives parseFloat kv.2 v ∧ SameType v (defaultOf f)) :
    ∃ cfg, fromJsonFile parseFloat parse (some content) = some cfg := by
  have key : ∀ (kvs : List (String × Json)) (st : Config F × Bool), st.2 = true →
      (∀ kv ∈ kvs, ∀ f : Field, foldName kv.1 = foldName f.name →
        kv.2 = .null ∨ ∃ v, Gives parseFloat kv.2 v ∧ SameType v (defaultOf f)) →
      (kvs.foldl (assign parseFloat) st).2 = true := by
    intro kvs
    induction kvs with
    | nil => intro st h _; exact h
    | cons kv kvs ih =>
      intro st h hg
      rw [List.foldl_cons]
      apply ih _ _ (fun kv hk => hg kv (by simp [hk]))
      unfold assign
      cases hf : fieldOf kv.1 with
      | none => exact h
      | some f =>
        dsimp only
        have : ∃ v, decode parseFloat (st.1.get f) kv.2 = some v := by
          rcases hg kv (by simp) f ((fieldOf_iff _ _).mp hf) with hn | ⟨v, h1, h2⟩
          · rw [hn]
            cases st.1.get f <;> exact ⟨_, rfl⟩
          · exact ⟨v, decode_gives parseFloat _ _ _ h1 (SameType.trans' h2 (default_type _ _))⟩
        obtain ⟨v, hv⟩ := this
        rw [hv]; exact h
  refine ⟨(kvs.foldl (assign parseFloat) (Configuration.default, true)).1, ?_⟩
  unfold fromJsonFile
  dsimp only
  rw [hp]
  dsimp only
  rw [if_pos (key kvs _ rfl hgood)]

/-- C41, errors: an unreadable file, a syntax error, a top-level value that is neither an object nor
`null`, or a key whose value has the wrong type give no configuration. -/
theorem C41_errors (parseFloat : Bytes → Option F) (parse : Bytes → Option Json) :
    fromJsonFile parseFloat parse none = none ∧
    (∀ content, parse content = none → fromJsonFile parseFloat parse (some content) = none) ∧
    (∀ content j, parse content = some j → j ≠ .null → (¬ ∃ kvs, j = .obj kvs) →
      fromJsonFile parseFloat parse (some content) = none) ∧
    (∀ content kvs kv (f : Field), parse content = some (.obj kvs) → kv ∈ kvs → foldName kv.1 = foldName f.name →
      kv.2 ≠ .null → NoNullElement kv.2 →
      (¬ ∃ v, Gives parseFloat kv.2 v ∧ SameType v (defaultOf f)) →
      fromJsonFile parseFloat parse (some content) = none) := by
  refine ⟨rfl, ?_, ?_, ?_⟩
  · intro content h
    unfold fromJsonFile; dsimp only; rw [h]
  · intro content j h hn ho
    unfold fromJsonFile; dsimp only; rw [h]
    cases j with
    | null => exact absurd rfl hn
    | obj kvs => exact absurd ⟨kvs, rfl⟩ ho
    | bool b => rfl
    | num b => rfl
    | str b => rfl
    | arr b => rfl
  · intro content kvs kv f hp hmem hkey hnull hel hbad
    cases hres : fromJsonFile parseFloat parse (some content) with
    | none => rfl
    | some cfg =>
      exfalso
      obtain ⟨hok, -⟩ := fromJson_obj parseFloat parse content kvs cfg hp hres
      obtain ⟨pre, post, rfl⟩ := List.append_of_mem hmem
      rw [List.foldl_append, List.foldl_cons] at hok
      have hflag := assign_flag parseFloat post _ hok
      obtain ⟨v, hd, -⟩ := assign_match parseFloat _ kv f hkey hflag
      obtain ⟨h1, h2⟩ := decode_inv parseFloat kv.2 v _ hd
      exact hbad ⟨v, h2 hnull hel, SameType.trans' h1 (type_default _ _)⟩

/-- C41: the JSON text `null` gives the default configuration. -/
theorem C41_top_null (parseFloat : Bytes → Option F) (parse : Bytes → Option Json) (content : Bytes)
    (h : parse content = some .null) : ∃ cfg : Config F, fromJsonFile parseFloat parse (some content) = some cfg ∧
      ∀ f : Field, cfg.get f = defaultOf f := by
  refine ⟨Configuration.default, ?_, fun f => by cases f <;> rfl⟩
  unfold fromJsonFile; dsimp only; rw [h]

-- {"batchSize": 128, "K": [6, 8], "Extra": true}
example : (fromJsonFile (fun _ => (none : Option Rat))
      (fun _ => some (.obj [("batchSize", .num (bytes "128")), ("K", .arr [.num (bytes "6"), .num (bytes "8")]),
        ("Extra", .bool true)])) (some [])).map (fun c => (c.BatchSize, c.K, c.L, c.Rehash, c.UseAdam)) =
    some (128, [6, 8], [], 1000, true) := by decide +kernel
-- {"BatchSize": "128"} is a type error
example : (fromJsonFile (fun _ => (none : Option Rat))
      (fun _ => some (.obj [("BatchSize", .str (bytes "128"))])) (some [])).isNone = true := by decide +kernel

end Goslide.Props
