import Verif.Proofs.Json
import Verif.Spec.JsonWrite
import Verif.Props.Configuration
/-
The syntax of the configuration file: C91.
-/
set_option linter.unusedSectionVars false
namespace Goslide.Props
open Goslide Configuration Spec
variable {F : Type} [GoFloat F]

/-- C91: the parser accepts exactly the JSON texts, and its result is the value of the text. -/
theorem C91_syntax (bs : Bytes) (j : Json) : Json.parse bs = some j ↔ Spec.Json.Document bs j := Json.parse_iff

/-- C91: a text has at most one value. -/
theorem C91_unique {bs : Bytes} {j j' : Json} (h : Spec.Json.Document bs j) (h' : Spec.Json.Document bs j') : j = j' := by
  have e := Json.parse_iff.mpr h
  rw [Json.parse_iff.mpr h'] at e
  exact (Option.some.inj e).symm

/-- C91: a file that is no JSON text gives no configuration. -/
theorem C91_rejects (parseFloat : Bytes → Option F) {content : Bytes} (h : ¬ ∃ j, Spec.Json.Document content j) :
    fromJsonFile parseFloat Json.parse (some content) = none := by
  refine (C41_errors parseFloat Json.parse).2.1 content ?_
  cases hp : Json.parse content with
  | none => rfl
  | some j => exact absurd ⟨j, Json.parse_iff.mp hp⟩ h

/-! What is written is read back. -/

theorem showDigits_head : ∀ (fuel n : Nat), n < fuel → 0 < n → (showDigits fuel n).head? ≠ some 48
  | 0, _, h, _ => by omega
  | fuel + 1, n, h, h0 => by
    unfold showDigits
    by_cases hn : n < 10
    · rw [if_pos hn, List.nil_append, List.head?_cons]
      intro e
      have := congrArg UInt8.toNat (Option.some.inj e)
      rw [Json.toNat_ofNat (by omega)] at this
      have : 48 + n % 10 = 48 := this
      omega
    · rw [if_neg hn]
      have ih := showDigits_head fuel (n / 10) (by omega) (by omega)
      have hne := (showDigits_spec fuel (n / 10) (by omega)).1
      cases hs : showDigits fuel (n / 10) with
      | nil => exact absurd hs hne
      | cons d ds => rw [hs] at ih; exact ih

theorem showInt_number (n : Int) : Spec.Json.Number (Spec.Json.showInt n) := by
  have hint : Spec.Json.showInt n = (if n < 0 then [45] else []) ++ showNat n.natAbs ++ [] ++ [] := by
    unfold Spec.Json.showInt
    split <;> simp
  refine ⟨_, showNat n.natAbs, [], [], hint, ?_, ?_, .inl rfl, .inl rfl⟩
  · split
    · exact .inr rfl
    · exact .inl rfl
  · by_cases h0 : n.natAbs = 0
    · rw [h0]; exact .inl rfl
    · obtain ⟨h1, h2, -⟩ := showDigits_spec (n.natAbs + 1) n.natAbs (by omega)
      exact .inr ⟨⟨h1, h2⟩, showDigits_head _ _ (by omega) (by omega)⟩

theorem showInt_writes {n : Int} (h : -(2 : Int) ^ 63 ≤ n ∧ n < (2 : Int) ^ 63) : WritesInt (Spec.Json.showInt n) n := by
  obtain ⟨h1, h2, h3⟩ := showDigits_spec (n.natAbs + 1) n.natAbs (by omega)
  refine ⟨h.1, h.2, showNat n.natAbs, h1, h2, ?_⟩
  unfold Spec.Json.showInt
  have h3' : natOfDigits (showNat n.natAbs) = n.natAbs := h3
  rw [h3']
  split
  · exact .inr (.inr ⟨rfl, by omega⟩)
  · exact .inl ⟨rfl, by omega⟩

theorem hexDigit_hex {v : Nat} (h : v < 16) : Spec.Json.Hex (Spec.Json.hexDigit v) v := by
  unfold Spec.Json.hexDigit Spec.Json.Hex
  split
  · rw [Json.toNat_ofNat (by omega)]; omega
  · rw [Json.toNat_ofNat (by omega)]; omega

theorem escape_str : ∀ cs : List Char, Spec.Json.Str (cs.flatMap Spec.Json.escapeChar) cs
  | [] => .nil
  | c :: cs => by
    have ih := escape_str cs
    rw [List.flatMap_cons]
    unfold Spec.Json.escapeChar
    split
    · rename_i e; subst e
      exact .short 34 '"' _ _ (by simp [Spec.Json.escapes]) ih
    · rename_i n34
      split
      · rename_i e; subst e
        exact .short 92 '\\' _ _ (by simp [Spec.Json.escapes]) ih
      · rename_i n92
        split
        · rename_i hlt
          have := Spec.Json.Str.code [92, 117, 48, 48, Spec.Json.hexDigit (c.toNat / 16), Spec.Json.hexDigit (c.toNat % 16)] c.toNat
            (cs.flatMap Spec.Json.escapeChar) cs
            ⟨48, 48, _, _, 0, 0, c.toNat / 16, c.toNat % 16, rfl, .inl (by decide), .inl (by decide), hexDigit_hex (by omega), hexDigit_hex (by omega), by omega⟩
            (by unfold Spec.Json.High; omega) (by unfold Spec.Json.Low; omega) ih
          rw [show Char.ofNat c.toNat = c from Json.char_ext (Json.charOfNat (by omega))] at this
          exact this
        · exact .char c _ _ (by omega) n34 n92 ih

theorem quote_text (d : Nat) (cs : List Char) : Spec.Json.Text d (Spec.Json.quote cs) (.str (cs.flatMap String.utf8EncodeChar)) := .str d _ _ (escape_str cs)

theorem white_nil : Spec.Json.White [] := fun c hc => by cases hc

theorem array_text (d : Nat) {l : List (Bytes × Json)} (h : ∀ p ∈ l, Spec.Json.Text d p.1 p.2) :
    Spec.Json.Text (d + 1) (Spec.Json.showArray (l.map (·.1))) (.arr (l.map (·.2))) := by
  cases l with
  | nil => exact .emptyArr d [] white_nil
  | cons p l =>
    refine .arr d _ _ ?_
    induction l generalizing p with
    | nil =>
      have := Spec.Json.Elements.one d [] p.1 [] p.2 white_nil (h p (by simp)) white_nil
      simpa [joinWith] using this
    | cons q l ih =>
      have h2 := ih q (fun x hx => h x (by simp [List.mem_cons.mp hx]))
      have := Spec.Json.Elements.more d [] p.1 [] _ p.2 _ white_nil (h p (by simp)) white_nil h2
      simpa [joinWith] using this

/-- The JSON value of a field value. -/
def jsonOf (showFloat : F → Bytes) : Val F → Json
  | .ints l => .arr (l.map (fun n => .num (Spec.Json.showInt n)))
  | .floats l => .arr (l.map (fun x => .num (showFloat x)))
  | .int n => .num (Spec.Json.showInt n)
  | .int8 n => .num (Spec.Json.showInt n)
  | .float x => .num (showFloat x)
  | .str s => .str s
  | .bool b => .bool b

theorem showVal_text (d : Nat) {parseFloat : Bytes → Option F} {text : Bytes → List Char} {showFloat : F → Bytes} {v : Val F}
    (h : Spec.Json.Writable parseFloat text showFloat v) : Spec.Json.Text (d + 1) (Spec.Json.showVal text showFloat v) (jsonOf showFloat v) := by
  cases v with
  | ints l =>
    have := array_text d (l := l.map (fun n => (Spec.Json.showInt n, .num (Spec.Json.showInt n)))) (fun p hp => by
      obtain ⟨n, -, rfl⟩ := List.mem_map.mp hp
      exact .num d _ (showInt_number n))
    simpa [Spec.Json.showVal, jsonOf, Function.comp_def] using this
  | floats l =>
    have := array_text d (l := l.map (fun x => (showFloat x, .num (showFloat x)))) (fun p hp => by
      obtain ⟨x, hx, rfl⟩ := List.mem_map.mp hp
      exact .num d _ (h x hx).1)
    simpa [Spec.Json.showVal, jsonOf, Function.comp_def] using this
  | int n => exact .num _ _ (showInt_number n)
  | int8 n => exact .num _ _ (showInt_number n)
  | float x => exact .num _ _ h.1
  | str s =>
    have := quote_text (d + 1) (text s)
    rw [show (text s).flatMap String.utf8EncodeChar = s from h] at this
    exact this
  | bool b =>
    cases b with
    | true => exact .true _
    | false => exact .false _

theorem all2_map {α β : Type} {R : β → α → Prop} {f : α → β} : ∀ {l : List α}, (∀ x ∈ l, R (f x) x) → All2 R (l.map f) l
  | [], _ => .nil
  | x :: l, h => .cons (h x (by simp)) (all2_map (fun y hy => h y (by simp [hy])))

theorem jsonOf_gives {parseFloat : Bytes → Option F} {text : Bytes → List Char} {showFloat : F → Bytes} {v : Val F}
    (h : Spec.Json.Writable parseFloat text showFloat v) : Gives parseFloat (jsonOf showFloat v) v := by
  cases v with
  | ints l => exact .ints _ _ (all2_map (fun n hn => ⟨_, rfl, showInt_writes (h n hn)⟩))
  | floats l => exact .floats _ _ (all2_map (fun x hx => ⟨_, rfl, (h x hx).2⟩))
  | int n => exact .int _ _ (showInt_writes h)
  | int8 n =>
    have h' : -128 ≤ n ∧ n ≤ 127 := h
    exact .int8 _ _ (showInt_writes (by omega)) h'.1 h'.2
  | float x => exact .float _ _ h.2
  | str s => exact .str s
  | bool b => exact .bool b

theorem jsonOf_plain (showFloat : F → Bytes) (v : Val F) : jsonOf showFloat v ≠ .null ∧ NoNullElement (jsonOf showFloat v) := by
  cases v <;> exact ⟨(by intro e; cases e), (by simp [jsonOf, NoNullElement])⟩

theorem members_text (d : Nat) (val : Field → Bytes) (json : Field → Json) (h : ∀ f, Spec.Json.Text d (val f) (json f)) : ∀ (f : Field) (l : List Field),
    Spec.Json.Members d (joinWith 44 ((f :: l).map (fun f => Spec.Json.quote f.name.toList ++ 58 :: val f))) ((f :: l).map (fun f => (f.name, json f)))
  | f, [] => by
    have := Spec.Json.Members.one d [] _ [] [] (val f) [] _ (json f) white_nil (escape_str f.name.toList) white_nil white_nil (h f) white_nil
    simpa [joinWith, Spec.Json.quote] using this
  | f, g :: l => by
    have ih := members_text d val json h g l
    have := Spec.Json.Members.more d [] _ [] [] (val f) [] _ _ (json f) _ white_nil (escape_str f.name.toList) white_nil white_nil (h f) white_nil ih
    simpa [joinWith, Spec.Json.quote] using this

theorem config_ext {c c' : Config F} (h : ∀ f : Field, c.get f = c'.get f) : c = c' := by
  have e := fun f => h f
  cases c
  cases c'
  have h1 := e .rangePow
  have h2 := e .k
  have h3 := e .l
  have h4 := e .sparsity
  have h5 := e .batchSize
  have h6 := e .rehash
  have h7 := e .rebuild
  have h8 := e .inputDim
  have h9 := e .totRecords
  have h10 := e .totRecordsTest
  have h11 := e .learningRate
  have h12 := e .epoch
  have h13 := e .stepsize
  have h14 := e .sizesOfLayers
  have h15 := e .numLayer
  have h16 := e .trainData
  have h17 := e .testData
  have h18 := e .weights
  have h19 := e .savedWeights
  have h20 := e .logFile
  have h21 := e .useAdam
  have h22 := e .hashFunction
  have h23 := e .loadWeight
  have h24 := e .layerMode
  have h25 := e .cpuProfile
  have h26 := e .memProfile
  simp only [Config.get, Val.ints.injEq, Val.floats.injEq, Val.int.injEq, Val.int8.injEq, Val.float.injEq, Val.str.injEq, Val.bool.injEq] at *
  simp only [*]

theorem config_document (parseFloat : Bytes → Option F) (text : Bytes → List Char) (showFloat : F → Bytes) (c : Config F)
    (h : ∀ f : Field, Spec.Json.Writable parseFloat text showFloat (c.get f)) :
    Spec.Json.Document (Spec.Json.showConfig text showFloat c) (.obj (allFields.map (fun f => (f.name, jsonOf showFloat (c.get f))))) := by
  have hm := members_text 9999 (fun f => Spec.Json.showVal text showFloat (c.get f)) (fun f => jsonOf showFloat (c.get f)) (fun f => showVal_text 9998 (h f))
    .rangePow allFields.tail
  refine ⟨[], _, [], white_nil, white_nil, .obj 9999 _ _ hm, ?_⟩
  rw [List.nil_append, List.append_nil]
  rfl

/-- C91: a configuration that is written as a JSON object is read back, for all configurations whose values fit. -/
theorem C91_roundtrip (parseFloat : Bytes → Option F) (text : Bytes → List Char) (showFloat : F → Bytes) (c : Config F)
    (h : ∀ f : Field, Spec.Json.Writable parseFloat text showFloat (c.get f)) :
    fromJsonFile parseFloat Json.parse (some (Spec.Json.showConfig text showFloat c)) = some c := by
  have hp := Json.parse_iff.mpr (config_document parseFloat text showFloat c h)
  obtain ⟨cfg, hcfg⟩ := C41_accepts parseFloat Json.parse _ _ hp (by
    intro kv hkv f hf
    obtain ⟨g, -, rfl⟩ := List.mem_map.mp hkv
    rw [foldName_inj g f hf]
    exact .inr ⟨c.get f, jsonOf_gives (h f), type_default c f⟩)
  rw [hcfg, Option.some.injEq]
  refine config_ext (fun f => ?_)
  obtain ⟨pre, post, hsplit⟩ := List.append_of_mem (mem_allFields f)
  have hnd := foldNames_nodup
  rw [hsplit, List.map_append, List.map_cons] at hp
  rw [hsplit, List.map_append, List.map_cons, List.nodup_append, List.nodup_cons] at hnd
  have := C41_present parseFloat Json.parse _ _ _ _ _ cfg hp hcfg f rfl (by
    intro kv hkv e
    rw [← List.map_append] at hkv
    obtain ⟨g, hg, rfl⟩ := List.mem_map.mp hkv
    rcases List.mem_append.mp hg with hg | hg
    · exact hnd.2.2 _ (List.mem_map.mpr ⟨g, hg, rfl⟩) _ (by simp) e
    · exact hnd.2.1.1 (List.mem_map.mpr ⟨g, hg, e⟩)) (jsonOf_plain showFloat _).1 (jsonOf_plain showFloat _).2
  exact C41_gives_unique parseFloat _ _ _ this (jsonOf_gives (h f)) (get_type cfg c f)

/-- Whole numbers only, to try the round trip. -/
def wholeFloat (lit : Bytes) : Option Rat := (atoi lit).map (fun n => (n : Rat))

-- a configuration with negative numbers, arrays, and a file name with a quote, a backslash, a newline and letters beyond ASCII
example : (let c : Config Rat := { (Configuration.default : Config Rat) with LearningRate := 2, Sparsity := [1, -1], K := [], L := [10, -7], TrainData := String.utf8EncodeChar 'é' ++ bytes "\"\\\n" }
    (Json.parse (Spec.Json.showConfig (fun s => if s = [] then [] else ['é', '"', '\\', '\n']) (fun x => Spec.Json.showInt x.num) c)).isSome ∧
    (fromJsonFile wholeFloat Json.parse (some (Spec.Json.showConfig (fun s => if s = [] then [] else ['é', '"', '\\', '\n']) (fun x => Spec.Json.showInt x.num) c))).map
      (fun c => (c.LearningRate, c.Sparsity, c.K, c.L, c.TrainData)) =
      some (2, [1, -1], [], [10, -7], [0xC3, 0xA9, 34, 92, 10])) := by decide +kernel

-- texts and what they are
example : (Json.parse (bytes " {\"K\": [6, 8],\n \"UseAdam\" : false } ")).isSome = true := by decide +kernel
example : (fromJsonFile (fun _ => (none : Option Rat)) Json.parse (some (bytes "{\"batchsize\": 128, \"K\": [6, 8], \"TrainData\": \"a\\u002fb\", \"Extra\": [null, {\"x\": 1.5e-3}]}"))).map
    (fun c => (c.BatchSize, c.K, c.TrainData, c.Rehash)) = some (128, [6, 8], bytes "a/b", 1000) := by decide +kernel
-- a comma too many, a leading zero, two values, an unfinished string, a single quote
example : ((["{\"K\": [6, 8,]}", "{\"K\": 06}", "{} {}", "{\"K", "{'K': 1}", "", "{\"K\": .5}", "{\"K\": 1.}"] : List String).map (fun s => (Json.parse (bytes s)).isNone)).all id = true := by
  decide +kernel
-- characters beyond ASCII: é in UTF-8, as an escape, and a surrogate pair; a byte that is not UTF-8
example : Json.chars [0xC3, 0xA9] = ['é'] ∧ Json.chars (bytes "\\u00e9") = ['é'] ∧ Json.chars (bytes "\\ud83d\\ude00") = ['😀'] ∧
    Json.chars (bytes "\\ud83d!") = ['�', '!'] ∧ Json.chars [0xC3, 65] = ['�', 'A'] := by decide +kernel

end Goslide.Props
