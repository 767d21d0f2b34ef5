import Verif.Proofs.NewRun
import Verif.Props.Rehash
/-
Building a network, training and prediction do not panic: C63, C66.
-/
set_option linter.unusedSectionVars false
namespace Goslide.Props
open Goslide Node Lsh Configuration Spec Spec.Node Spec.Network Spec.Layer Layer Network Xcrepo
variable {F : Type} [GoFloat F]

/-! ### C66 -/

/-- C66 for full layers. `ProcessInput` with the owner's cowId on at most a batch of examples with features in range does not
panic, with or without Adam and whatever the labels; it returns the same network, on which the same holds again. -/
theorem C66_full [FloatOrder F] {cfg : Config F} (hl : cfg.LoadWeight = false) {c : Int} {a : NetArgs F} (ha : a.Typed) (hfull : Full a.sparsity)
    {w : World F} {p : Ptr} (life : Life cfg c a w p) (fuel : Nat) {es : List (Example F)} (iter : Int) (rehash rebuild : Bool)
    (hb : es.length ≤ a.batch) (hfit : ∀ ex ∈ es, ∀ x ∈ ex.Features, 0 ≤ x.Index ∧ x.Index < a.dim) :
    ∃ w', processInput cfg fuel p c es iter rehash rebuild w = .ok ((GoFloat.zero, p), w') ∧ Life cfg c a w' p := by
  obtain ⟨n, Q, al⟩ := life.alive hl ha
  have hlen := al.len
  have hget : ∀ j, j < Q.length → ∃ sp, a.sparsity[j]? = some sp ∧ GoFloat.eq sp (GoFloat.one : F) = true ∧ GoFloat.lt sp (GoFloat.one : F) = false := by
    intro j hj
    have h := List.getElem?_eq_getElem (l := a.sparsity) (i := j) (by omega)
    exact ⟨_, h, hfull _ (List.mem_of_getElem? h)⟩
  obtain ⟨k, w', rfl, h⟩ := processInput_run (P := Pace.any) (es := es) iter rehash rebuild trivial al (by omega)
    (by
      intro Q' hQ' e hn ex hex
      refine ⟨⟨fun j g hg => ?_⟩, ?_⟩
      · obtain ⟨sp, h1, h2, -⟩ := hget j (by have := (List.getElem?_eq_some_iff.mp hg).1; omega)
        refine ⟨sp, _, by rw [Nat.zero_add]; exact h1, selectSafe_full cfg _ _ h2 _ _ _ _, fun sp' _ h' he => ?_⟩
        rw [(hfull sp' (List.mem_of_getElem? h')).1] at he
        cases he
      · intro sp hsp
        refine ⟨fun x hx => ?_, fun h => ?_⟩
        · have := hfit ex hex x hx
          omega
        · rw [(hfull sp (List.mem_of_getElem? hsp)).1] at h
          cases h)
    (by
      intro Q' hQ' e j g hg
      obtain ⟨sp, h1, -, h3⟩ := hget j (by have := (List.getElem?_eq_some_iff.mp hg).1; omega)
      refine ⟨sp, h1, fun h => ?_⟩
      rw [h3] at h
      cases h)
  exact ⟨w', h fuel (Nat.zero_le _), life.train (h fuel (Nat.zero_le _))⟩

theorem train_pace [FloatOrder F] [FloatIntDiv F] {P : Pace} {cfg : Config F} (hl : cfg.LoadWeight = false) {c : Int} {a : NetArgs F} (ha : a.Typed)
    (hP : P.Enough cfg a.sizes) (hok : LayersOk cfg a 0) {w : World F} {p : Ptr} (life : Life cfg c a w p) (hr : P.J w.rng) {es : List (Example F)}
    (iter : Int) (rehash rebuild : Bool) (hb : es.length ≤ a.batch) (hfit : ∀ ex ∈ es, Fits cfg a 0 ex.Features ex.Labels) :
    ∃ k w', P.K k ∧ (∀ fuel, k ≤ fuel → processInput cfg fuel p c es iter rehash rebuild w = .ok ((GoFloat.zero, p), w')) ∧
      Life cfg c a w' p ∧ P.J w'.rng := by
  obtain ⟨n, Q, al⟩ := life.alive hl ha
  obtain ⟨k, w', hk, h⟩ := train_run iter rehash rebuild hP hr al hok hb hfit
  exact ⟨k, w', hk, h, life.train (h k (Nat.le_refl _)), (Draws.processInput _ _ _ _ _ _ _ _).pace P (h k (Nat.le_refl _)) hr⟩

theorem predict_pace [FloatOrder F] [FloatIntDiv F] {P : Pace} {cfg : Config F} (hl : cfg.LoadWeight = false) {c : Int} {a : NetArgs F} (ha : a.Typed)
    (hP : P.Enough cfg a.sizes) (hpos : 0 < a.layers) (hok : LayersOk cfg a a.layers.toNat) {w : World F} {p : Ptr} (life : Life cfg c a w p)
    (hr : P.J w.rng) {es : List (Example F)} (hb : es.length ≤ a.batch) (hfit : ∀ ex ∈ es, Fits cfg a a.layers.toNat ex.Features []) :
    ∃ k m w', P.K k ∧ (∀ fuel, k ≤ fuel → predictClass cfg fuel p c es w = .ok ((m, p), w')) ∧ 0 ≤ m ∧ m ≤ es.length ∧
      Life cfg c a w' p ∧ P.J w'.rng := by
  obtain ⟨n, Q, al⟩ := life.alive hl ha
  obtain ⟨k, m, w', hk, h⟩ := predict_run hP hr al hpos hok hb hfit
  have hk' := h k (Nat.le_refl _)
  have hm := C64_bounds hk'
  exact ⟨k, m, w', hk, h, hm.1, hm.2, life.predict hk', (Draws.predictClass _ _ _ _ _).pace P hk' hr⟩

theorem calls_pace [FloatOrder F] [FloatIntDiv F] {P : Pace} {cfg : Config F} (hl : cfg.LoadWeight = false) {c : Int} {a : NetArgs F} (ha : a.Typed)
    (hP : P.Enough cfg a.sizes) (hpos : 0 < a.layers) (hok : LayersOk cfg a 0) (hok' : LayersOk cfg a a.layers.toNat) (calls : List (NetCall F))
    (hcalls : ∀ x ∈ calls, CallOk cfg a x) : ∀ {w : World F} {p : Ptr}, Life cfg c a w p → P.J w.rng →
      ∃ k w', P.K k ∧ (∀ fuel, k ≤ fuel → runCalls cfg fuel c calls p w = .ok (p, w')) ∧ Life cfg c a w' p ∧ P.J w'.rng := by
  induction calls with
  | nil => intro w p life hr; exact ⟨0, w, P.zero, fun _ _ => rfl, life, hr⟩
  | cons x calls ih =>
    intro w p life hr
    have hx := hcalls x (by simp)
    have ih := fun {w : World F} (life : Life cfg c a w p) hr => ih (fun y hy => hcalls y (by simp [hy])) life hr
    cases x with
    | train es iter rehash rebuild =>
      obtain ⟨k1, w1, hk1, h1, life1, hr1⟩ := train_pace hl ha hP hok life hr iter rehash rebuild hx.1 hx.2
      obtain ⟨k2, w', hk2, h, life', hr'⟩ := ih life1 hr1
      refine ⟨Nat.max k1 k2, w', P.max hk1 hk2, fun fuel hf => ?_, life', hr'⟩
      unfold runCalls
      rw [h1 fuel (Nat.le_trans (Nat.le_max_left _ _) hf)]
      exact h fuel (Nat.le_trans (Nat.le_max_right _ _) hf)
    | predict es =>
      obtain ⟨k1, m, w1, hk1, h1, -, -, life1, hr1⟩ := predict_pace hl ha hP hpos hok' life hr hx.1 hx.2
      obtain ⟨k2, w', hk2, h, life', hr'⟩ := ih life1 hr1
      refine ⟨Nat.max k1 k2, w', P.max hk1 hk2, fun fuel hf => ?_, life', hr'⟩
      unfold runCalls
      rw [h1 fuel (Nat.le_trans (Nat.le_max_left _ _) hf)]
      exact h fuel (Nat.le_trans (Nat.le_max_right _ _) hf)

/-- C66 for every layer mode except 2 (for it see `C80_train`), densified winner-takes-all, signed random projections and densified minhash, with
parameters that fit (`LayersOk`) and examples that fit. Missing for C66: WTA, minhash with fewer than 30 or more than 53 inputs or behind a layer that is
not full, tables that are too small for the hash codes (there it is false, `C66_small_tables_false`), layers without nodes, softmax layers in mode 3. -/
theorem C66_train_partial [FloatOrder F] [FloatIntDiv F] {cfg : Config F} (hl : cfg.LoadWeight = false) (hm : cfg.LayerMode ≠ 2) {c : Int} {a : NetArgs F}
    (ha : a.Typed) (hok : LayersOk cfg a 0) {w : World F} {p : Ptr} (life : Life cfg c a w p) (fuel : Nat) {es : List (Example F)} (iter : Int)
    (rehash rebuild : Bool) (hb : es.length ≤ a.batch) (hfit : ∀ ex ∈ es, Fits cfg a 0 ex.Features ex.Labels) :
    ∃ w', processInput cfg fuel p c es iter rehash rebuild w = .ok ((GoFloat.zero, p), w') ∧ Life cfg c a w' p := by
  obtain ⟨k, w', rfl, h, life', -⟩ := train_pace hl ha (Pace.enough_any a.sizes hm) hok life trivial iter rehash rebuild hb hfit
  exact ⟨w', h fuel (Nat.zero_le _), life'⟩

/-- The same for `PredictClass`, which uses the second half of the sparsities and no labels. -/
theorem C66_predict [FloatOrder F] [FloatIntDiv F] {cfg : Config F} (hl : cfg.LoadWeight = false) (hm : cfg.LayerMode ≠ 2) {c : Int} {a : NetArgs F}
    (ha : a.Typed) (hpos : 0 < a.layers) (hok : LayersOk cfg a a.layers.toNat) {w : World F} {p : Ptr} (life : Life cfg c a w p) (fuel : Nat)
    {es : List (Example F)} (hb : es.length ≤ a.batch) (hfit : ∀ ex ∈ es, Fits cfg a a.layers.toNat ex.Features []) :
    ∃ m w', predictClass cfg fuel p c es w = .ok ((m, p), w') ∧ 0 ≤ m ∧ m ≤ es.length ∧ Life cfg c a w' p := by
  obtain ⟨k, m, w', rfl, h, h0, h1, life', -⟩ := predict_pace hl ha (Pace.enough_any a.sizes hm) hpos hok life trivial hb hfit
  exact ⟨m, w', h fuel (Nat.zero_le _), h0, h1, life'⟩

/-- C66 for whole histories: no sequence of training steps and predictions on batches that fit panics. -/
theorem C66_calls [FloatOrder F] [FloatIntDiv F] {cfg : Config F} (hl : cfg.LoadWeight = false) (hm : cfg.LayerMode ≠ 2) {c : Int} {a : NetArgs F}
    (ha : a.Typed) (hpos : 0 < a.layers) (hok : LayersOk cfg a 0) (hok' : LayersOk cfg a a.layers.toNat) (fuel : Nat) (calls : List (NetCall F))
    (hcalls : ∀ x ∈ calls, CallOk cfg a x) {w : World F} {p : Ptr} (life : Life cfg c a w p) :
    ∃ w', runCalls cfg fuel c calls p w = .ok (p, w') ∧ Life cfg c a w' p := by
  obtain ⟨k, w', rfl, h, life', -⟩ := calls_pace hl ha (Pace.enough_any a.sizes hm) hpos hok hok' calls hcalls life trivial
  exact ⟨w', h fuel (Nat.zero_le _), life'⟩

/-! ### C80

Mode 2 draws nodes until it has enough different ones. The code draws without a bound; the model stops with `outOfFuel` after `fuel`
draws. With a random source that hits every node again and again, a bound exists from which on nothing changes, that is, the code ends. -/

/-- C80, in mode 2 (and in modes 1 and 4): with a fair random source, `ProcessInput` on examples that fit ends without a panic, and the random
source that is left is fair again. -/
theorem C80_train [FloatOrder F] [FloatIntDiv F] {cfg : Config F} (hl : cfg.LoadWeight = false) {c : Int} {a : NetArgs F}
    (ha : a.Typed) (hok : LayersOk cfg a 0) {w : World F} {p : Ptr} (life : Life cfg c a w p) (hfair : FairSource a.sizes w.rng) {es : List (Example F)}
    (iter : Int) (rehash rebuild : Bool) (hb : es.length ≤ a.batch) (hfit : ∀ ex ∈ es, Fits cfg a 0 ex.Features ex.Labels) :
    ∃ bound w', (∀ fuel, bound ≤ fuel → processInput cfg fuel p c es iter rehash rebuild w = .ok ((GoFloat.zero, p), w')) ∧
      Life cfg c a w' p ∧ FairSource a.sizes w'.rng := by
  obtain ⟨k, w', -, h⟩ := train_pace hl ha (Pace.enough_fair cfg a.sizes) hok life hfair iter rehash rebuild hb hfit
  exact ⟨k, w', h⟩

/-- The same for `PredictClass`. -/
theorem C80_predict [FloatOrder F] [FloatIntDiv F] {cfg : Config F} (hl : cfg.LoadWeight = false) {c : Int} {a : NetArgs F} (ha : a.Typed)
    (hpos : 0 < a.layers) (hok : LayersOk cfg a a.layers.toNat) {w : World F} {p : Ptr} (life : Life cfg c a w p) (hfair : FairSource a.sizes w.rng)
    {es : List (Example F)} (hb : es.length ≤ a.batch) (hfit : ∀ ex ∈ es, Fits cfg a a.layers.toNat ex.Features []) :
    ∃ bound m w', (∀ fuel, bound ≤ fuel → predictClass cfg fuel p c es w = .ok ((m, p), w')) ∧ 0 ≤ m ∧ m ≤ es.length ∧
      Life cfg c a w' p ∧ FairSource a.sizes w'.rng := by
  obtain ⟨k, m, w', -, h⟩ := predict_pace hl ha (Pace.enough_fair cfg a.sizes) hpos hok life hfair hb hfit
  exact ⟨k, m, w', h⟩

/-- The same for whole histories. -/
theorem C80_calls [FloatOrder F] [FloatIntDiv F] {cfg : Config F} (hl : cfg.LoadWeight = false) {c : Int} {a : NetArgs F} (ha : a.Typed)
    (hpos : 0 < a.layers) (hok : LayersOk cfg a 0) (hok' : LayersOk cfg a a.layers.toNat) (calls : List (NetCall F))
    (hcalls : ∀ x ∈ calls, CallOk cfg a x) {w : World F} {p : Ptr} (life : Life cfg c a w p) (hfair : FairSource a.sizes w.rng) :
    ∃ bound w', (∀ fuel, bound ≤ fuel → runCalls cfg fuel c calls p w = .ok (p, w')) ∧ Life cfg c a w' p ∧ FairSource a.sizes w'.rng := by
  obtain ⟨k, w', -, h⟩ := calls_pace hl ha (Pace.enough_fair cfg a.sizes) hpos hok hok' calls hcalls life hfair
  exact ⟨k, w', h⟩

/-- C80: conversely, if the labels and all draws together are fewer different nodes than wanted, then no number of draws is enough: the code
never returns. -/
theorem C80_never_ends {cfg : Config F} {cur : List (Pair F)} {label : List Int} {sp : F} {w : World F} {x : Layer}
    (hsp : GoFloat.eq sp GoFloat.one = false) (hm : cfg.LayerMode = 2) (hty : x.nodeType = Softmax) (hn : 0 < x.nodes.len) (hmap : x.nodes.len ≤ mapLen)
    (hlab : ∀ y ∈ label, 0 ≤ y ∧ y < x.nodes.len) (hnd : label.Nodup) (hle : label.length ≤ wanted x.nodes.len sp) (S : List Int)
    (hfew : S.length < wanted x.nodes.len sp) (hS : ∀ y ∈ label, y ∈ S) (hdraw : ∀ i, ((w.rng i % x.nodes.len : Nat) : Int) ∈ S) (fuel : Nat) :
    select cfg fuel x cur label sp w = .error .outOfFuel := by
  have hs : sampleSize x sp = wanted x.nodes.len sp := rfl
  obtain ⟨act, bs, e1, hs1, ht⟩ := mode2_labels_run (sp := sp) hmap (by omega) hlab hnd hle
  rw [select_mode2 hsp hm hty, e1, Sampled.stuck hn hmap (S := S) (by omega) fuel _ _ _ _ hs1 (by rw [ht]; exact hS) hdraw]

-- five of six nodes wanted, label 1, and only even numbers are drawn
example (x : Layer) (h : x.nodes.len = 6) (hty : x.nodeType = Softmax) (fuel : Nat) :
    select (LayerEx.cfg 2) fuel x [⟨0, 1⟩] [1] (5/6) { LayerEx.w0 with rng := fun i => 2 * i } = .error .outOfFuel := by
  have hw : wanted (x.nodes.len : Int) (5/6 : Rat) = 5 := by rw [h]; decide +kernel
  refine C80_never_ends (by decide +kernel) rfl hty (by omega) (by rw [h]; decide) (by rw [h]; decide) (by decide) (by rw [hw]; decide) [0, 1, 2, 4]
    (by rw [hw]; decide) (by decide) ?_ fuel
  intro i
  rw [h]
  show ((2 * i % 6 : Nat) : Int) ∈ _
  have : 2 * i % 6 = 0 ∨ 2 * i % 6 = 2 ∨ 2 * i % 6 = 4 := by omega
  rcases this with e | e | e <;> rw [e] <;> decide

namespace NetEx

/-- One softmax layer with one node and a table of two buckets, for codes of two bits. -/
def smallArgs : NetArgs Rat :=
  { layers := 1, sizes := [1], types := [1], batch := 1, rate := 1 / 10, dim := 2, k := [2], l := [1], rangePow := [1], sparsity := [1 / 2, 1 / 2] }

def small : Go (Ptr × World Rat) :=
  Network.new (LayerEx.cfg 4) 0 smallArgs.layers smallArgs.sizes smallArgs.types smallArgs.batch smallArgs.rate smallArgs.dim smallArgs.k smallArgs.l
    smallArgs.rangePow smallArgs.sparsity { LayerEx.w0 with rng := fun n => 3 * n + 4 }

end NetEx

/-- C66 is false in mode 4: signed random projections with more bits than the tables have address bits. `New` succeeds when the
codes of the initial weights happen to be small, and then an input with a larger code makes `ProcessInput` panic. -/
theorem C66_small_tables_false : ¬ ∀ (a : NetArgs Rat) (w : World Rat) (p : Ptr) (es : List (Example Rat)) (iter : Int) (rehash rebuild : Bool),
    a.Typed → Life (LayerEx.cfg 4) 0 a w p → es.length ≤ a.batch →
    (∀ ex ∈ es, (∀ x ∈ ex.Features, 0 ≤ x.Index ∧ x.Index < a.dim) ∧ ex.Labels.Nodup ∧ ∀ size ∈ a.sizes, ∀ y ∈ ex.Labels, 0 ≤ y ∧ y < size) →
    ∃ r, processInput (LayerEx.cfg 4) 0 p 0 es iter rehash rebuild w = .ok r := by
  intro hall
  have h : (match NetEx.small with
      | .error _ => true
      | .ok (p, w) => (processInput (LayerEx.cfg 4) 0 p 0 [⟨[⟨1, 1⟩], [0]⟩] 0 false false w).isOk) = false := by decide +kernel
  cases hn : NetEx.small with
  | error e => rw [hn] at h; cases h
  | ok x =>
    obtain ⟨p, w⟩ := x
    rw [hn] at h
    obtain ⟨r, hr⟩ := hall NetEx.smallArgs w p [⟨[⟨1, 1⟩], [0]⟩] 0 false false ⟨by
        intro j ty hj hty
        match j, hj with
        | 0, _ => cases hty; exact .inr rfl, rfl⟩ (Life.new hn) (by decide) (by decide)
    dsimp only at h
    rw [hr] at h
    cases h

/-- The labels have to be distinct: with a repeated label the list of active nodes is filled up with node 0, which is back-propagated twice. -/
theorem C66_repeated_label : (match NetEx.build 4 [1/2, 1/2, 1/2, 1/2] with
    | .error _ => none
    | .ok (p, w) => match processInput (LayerEx.cfg 4) 0 p 0 [⟨[⟨0, 1⟩], [1, 1]⟩] 0 false false w with
      | .error e => some e
      | .ok _ => none) = some (.msg "Input Not Active but still called") := by decide +kernel

namespace NetEx

theorem layersOk (off : Nat) (h : off ≤ 2) : LayersOk (LayerEx.cfg 4) (args [1/2, 1/2, 1/2, 1/2]) off := by
  intro j size k l rp hj h1 h2 h3 h4
  have hj' : j < 2 := by change (j : Int) < 2 at hj; omega
  have hrp : HashParams (LayerEx.cfg 4) ((args [1/2, 1/2, 1/2, 1/2]).inputs j) k l rp ∧ 0 < size := by
    match j, hj' with
    | 0, _ => cases h1; cases h2; cases h3; cases h4; exact ⟨⟨by decide, (by decide : (_ : Int) ≤ 2 ^ 53 ∧ (1 : Int) ≤ 62 ∧ (1 : Int) ≤ 6)⟩, by decide⟩
    | 1, _ => cases h1; cases h2; cases h3; cases h4; exact ⟨⟨by decide, (by decide : (_ : Int) ≤ 2 ^ 53 ∧ (1 : Int) ≤ 62 ∧ (1 : Int) ≤ 6)⟩, by decide⟩
  refine ⟨1/2, ?_, .inr ⟨fun h => absurd h (by decide), fun h => absurd h (by decide), fun h => absurd rfl h, hrp.2, hrp.1⟩⟩
  match off, j, h, hj' with
  | 0, 0, _, _ => rfl
  | 0, 1, _, _ => rfl
  | 1, 0, _, _ => rfl
  | 1, 1, _, _ => rfl
  | 2, 0, _, _ => rfl
  | 2, 1, _, _ => rfl

theorem fits (sp : List Rat) (off : Nat) : ∀ ex ∈ examples, Fits (LayerEx.cfg 4) (args sp) off ex.Features ex.Labels := by
  intro ex hex
  have h : (∀ x ∈ ex.Features, 0 ≤ x.Index ∧ x.Index < 2) ∧ ex.Features.length ≤ 2 ∧ (∀ y ∈ ex.Labels, 0 ≤ y ∧ y < 2) ∧ ex.Labels.Nodup := by
    revert ex; decide
  refine ⟨h.1, fun _ _ _ => ⟨Nat.zero_le _, by have := h.2.1; change (ex.Features.length : Int) ≤ 2; omega⟩, ?_⟩
  intro j _ size hj _ _ ht hs
  have hj' : j < 2 := by change (j : Int) < 2 at hj; omega
  match j, hj' with
  | 0, _ => exact absurd ht (by show ¬ (some (0 : Int) = some 1); decide)
  | 1, _ => cases hs; exact ⟨h.2.2.1, fun _ => h.2.2.2, fun h2 => absurd h2 (by decide)⟩

end NetEx

-- a network in mode 4 with sparsity 1/2: any number of training steps and predictions succeeds
example : ∃ p w, NetEx.build 4 [1/2, 1/2, 1/2, 1/2] = .ok (p, w) ∧
    ∀ n : Nat, ∃ w', runCalls (LayerEx.cfg 4) 0 0 (List.replicate n (.train NetEx.examples 0 true true)) p w = .ok (p, w') := by
  have hb : (NetEx.build 4 [1/2, 1/2, 1/2, 1/2]).isOk = true := by decide +kernel
  cases h : NetEx.build 4 [1/2, 1/2, 1/2, 1/2] with
  | error e => rw [h] at hb; cases hb
  | ok x =>
    refine ⟨x.1, x.2, rfl, fun n => ?_⟩
    obtain ⟨w', h', -⟩ := C66_calls (cfg := LayerEx.cfg 4) rfl (by decide) (NetEx.typed [1/2, 1/2, 1/2, 1/2]) (by decide) (NetEx.layersOk 0 (by omega))
      (NetEx.layersOk 2 (by omega)) 0 (List.replicate n (.train NetEx.examples 0 true true))
      (by
        intro x hx
        obtain ⟨-, rfl⟩ := List.mem_replicate.mp hx
        exact ⟨by decide, NetEx.fits _ 0⟩) (Life.new h)
    exact ⟨w', h'⟩

-- the same network with full layers
example : Full (NetEx.args [1, 1, 1, 1]).sparsity ∧ (NetEx.build 4 [1, 1, 1, 1]).isOk = true := by
  refine ⟨?_, by decide +kernel⟩
  unfold Full
  decide

/-! ### C63 -/

/-- C63 without `LoadWeight`: `network.New` succeeds, whatever the memory and the random draws, when nothing is negative, there is an entry for every
layer and the hash codes fit the tables. Missing for C63: `LoadWeight`, with which it is false (`C63_loadWeight_false`). -/
theorem C63_new_partial [FloatIntDiv F] {cfg : Config F} (hl : cfg.LoadWeight = false) (c : Int) {a : NetArgs F} (ha : NewOk cfg a) (w : World F) :
    ∃ p w', Network.new cfg c a.layers a.sizes a.types a.batch a.rate a.dim a.k a.l a.rangePow a.sparsity w = .ok (p, w') :=
  new_total hl c ha w

/-- C63 and C66 together: a network is built and used, and nothing panics. -/
theorem C66_from_new [FloatOrder F] [FloatIntDiv F] {cfg : Config F} (hl : cfg.LoadWeight = false) (hm : cfg.LayerMode ≠ 2) (c : Int) {a : NetArgs F} (hnew : NewOk cfg a) (ha : a.Typed)
    (hpos : 0 < a.layers) (hok : LayersOk cfg a 0) (hok' : LayersOk cfg a a.layers.toNat) (fuel : Nat) (calls : List (NetCall F))
    (hcalls : ∀ x ∈ calls, CallOk cfg a x) (w : World F) :
    ∃ p w' w'', Network.new cfg c a.layers a.sizes a.types a.batch a.rate a.dim a.k a.l a.rangePow a.sparsity w = .ok (p, w') ∧
      runCalls cfg fuel c calls p w' = .ok (p, w'') := by
  obtain ⟨p, w', h⟩ := C63_new_partial hl c hnew w
  obtain ⟨w'', h', -⟩ := C66_calls hl hm ha hpos hok hok' fuel calls hcalls (Life.new h)
  exact ⟨p, w', w'', h, h'⟩

/-- The same with mode 2 and a fair random source. -/
theorem C80_from_new [FloatOrder F] [FloatIntDiv F] {cfg : Config F} (hl : cfg.LoadWeight = false) (c : Int) {a : NetArgs F} (hnew : NewOk cfg a)
    (ha : a.Typed) (hpos : 0 < a.layers) (hok : LayersOk cfg a 0) (hok' : LayersOk cfg a a.layers.toNat) (calls : List (NetCall F))
    (hcalls : ∀ x ∈ calls, CallOk cfg a x) (w : World F) (hfair : FairSource a.sizes w.rng) :
    ∃ bound p w' w'', Network.new cfg c a.layers a.sizes a.types a.batch a.rate a.dim a.k a.l a.rangePow a.sparsity w = .ok (p, w') ∧
      ∀ fuel, bound ≤ fuel → runCalls cfg fuel c calls p w' = .ok (p, w'') := by
  obtain ⟨p, w', h⟩ := C63_new_partial hl c hnew w
  obtain ⟨k, w'', h', -⟩ := C80_calls hl ha hpos hok hok' calls hcalls (Life.new h)
    ((Draws.new cfg c a.layers a.sizes a.types a.batch a.rate a.dim a.k a.l a.rangePow a.sparsity).pace (Pace.fair a.sizes) h hfair)
  exact ⟨k, p, w', w'', h, h'⟩

theorem NetEx.newOk (mode : Int) (sp : List Rat) (h : 2 ≤ sp.length) : NewOk (LayerEx.cfg mode) (NetEx.args sp) := by
  refine ⟨by show (0 : Int) ≤ 2; decide, by show (0 : Int) ≤ 2; decide, by show (0 : Int) ≤ 2; decide, ?_, ?_⟩
  · intro j hj
    have hj' : j < 2 := by change (j : Int) < 2 at hj; omega
    exact ⟨by show j < 2; omega, hj', hj', hj', hj', by show j < sp.length; omega⟩
  · intro j size k l rp hj h1 h2 h3 h4
    have hj' : j < 2 := by change (j : Int) < 2 at hj; omega
    match j, hj' with
    | 0, _ => cases h1; cases h2; cases h3; cases h4; exact ⟨by decide, by decide, by decide, by decide, by decide, (⟨by show (2 : Int) ≤ 2 ^ 53; decide, by decide, by decide⟩ : (_ : Int) ≤ 2 ^ 53 ∧ (1 : Int) ≤ 62 ∧ (1 : Int) ≤ 6)⟩
    | 1, _ => cases h1; cases h2; cases h3; cases h4; exact ⟨by decide, by decide, by decide, by decide, by decide, (⟨by show (3 : Int) ≤ 2 ^ 53; decide, by decide, by decide⟩ : (_ : Int) ≤ 2 ^ 53 ∧ (1 : Int) ≤ 62 ∧ (1 : Int) ≤ 6)⟩

-- any memory and random source
example (w : World Rat) : ∃ p w' w'', Network.new (LayerEx.cfg 4) 0 2 [3, 2] [0, 1] 2 (1 / 10) 2 [1, 1] [1, 1] [6, 6] [1/2, 1/2, 1/2, 1/2] w = .ok (p, w') ∧
    runCalls (LayerEx.cfg 4) 0 0 [.train NetEx.examples 0 true true, .train NetEx.examples 1 false true] p w' = .ok (p, w'') :=
  C66_from_new (cfg := LayerEx.cfg 4) rfl (by decide) 0 (NetEx.newOk 4 _ (by decide)) (NetEx.typed _) (by decide) (NetEx.layersOk 0 (by omega)) (NetEx.layersOk 2 (by omega)) 0 _
    (by
      intro x hx
      simp only [List.mem_cons, List.not_mem_nil, or_false] at hx
      rcases hx with rfl | rfl
      · exact ⟨by decide, NetEx.fits _ 0⟩
      · exact ⟨by decide, NetEx.fits _ 0⟩) w

namespace NetEx

theorem layersOk2 (off : Nat) (h : off = 0 ∨ off = 2) : LayersOk (LayerEx.cfg 2) (args [1/2, 1/2, 1/2, 1/2]) off := by
  intro j size k l rp hj h1 h2 h3 h4
  have hj' : j < 2 := by change (j : Int) < 2 at hj; omega
  obtain ⟨sp, q1, q2⟩ := layersOk off (by omega) j size k l rp hj h1 h2 h3 h4
  have hsp : sp = 1/2 := by
    rcases h with rfl | rfl <;> match j, hj' with
      | 0, _ => cases q1; rfl
      | 1, _ => cases q1; rfl
  subst hsp
  refine ⟨1/2, q1, .inr ?_⟩
  rcases q2 with ⟨q2, -⟩ | ⟨-, -, -, q2, q3⟩
  · exact absurd q2 (by decide +kernel)
  · refine ⟨fun _ => ?_, fun h => absurd h (by decide), fun h => absurd rfl h, q2, q3⟩
    match j, hj' with
    | 0, _ => cases h1; decide +kernel
    | 1, _ => cases h1; decide +kernel

theorem fits2 (off : Nat) (h : off = 0 ∨ off = 2) : ∀ ex ∈ examples, Fits (LayerEx.cfg 2) (args [1/2, 1/2, 1/2, 1/2]) off ex.Features ex.Labels := by
  intro ex hex
  have h1 : ex.Labels.length = 1 := by revert ex; decide
  obtain ⟨a, b, c⟩ := fits [1/2, 1/2, 1/2, 1/2] off ex hex
  refine ⟨a, b, fun j sp size hj hs he ht hz => ?_⟩
  obtain ⟨c1, c2, -⟩ := c j sp size hj hs he ht hz
  refine ⟨c1, fun _ => c2 (.inr rfl), fun _ => ?_⟩
  have hj' : j < 2 := by change (j : Int) < 2 at hj; omega
  rw [h1]
  rcases h with rfl | rfl <;> match j, hj' with
    | 0, _ => cases hs; cases hz; decide +kernel
    | 1, _ => cases hs; cases hz; decide +kernel

end NetEx

-- mode 2 with one of three and one of two nodes wanted: any memory with a random source that hits all nodes again and again
example (w : World Rat) (hfair : FairSource [3, 2] w.rng) :
    ∃ bound p w' w'', Network.new (LayerEx.cfg 2) 0 2 [3, 2] [0, 1] 2 (1 / 10) 2 [1, 1] [1, 1] [6, 6] [1/2, 1/2, 1/2, 1/2] w = .ok (p, w') ∧
    ∀ fuel, bound ≤ fuel → runCalls (LayerEx.cfg 2) fuel 0 [.train NetEx.examples 0 true true, .train NetEx.examples 1 false true] p w' = .ok (p, w'') :=
  C80_from_new (cfg := LayerEx.cfg 2) rfl 0 (NetEx.newOk 2 _ (by decide)) (NetEx.typed _) (by decide) (NetEx.layersOk2 0 (.inl rfl))
    (NetEx.layersOk2 2 (.inr rfl)) _
    (by
      intro x hx
      simp only [List.mem_cons, List.not_mem_nil, or_false] at hx
      rcases hx with rfl | rfl
      · exact ⟨by decide, NetEx.fits2 0 (.inl rfl)⟩
      · exact ⟨by decide, NetEx.fits2 0 (.inl rfl)⟩) w hfair

-- such sources exist, for layers of any sizes
example (sizes : List Int) : FairSource sizes (fun i => i) := by
  intro size _ v hv k
  refine ⟨size.toNat * k + v, ?_, ?_⟩
  · have : k * 1 ≤ k * size.toNat := Nat.mul_le_mul_left k (by omega)
    rw [Nat.mul_comm size.toNat k]
    omega
  · show (size.toNat * k + v) % size.toNat = v
    rw [Nat.mul_add_mod, Nat.mod_eq_of_lt hv]

namespace MinhashEx

/-- Minhash, mode 1. -/
def cfg : Config Rat := { LayerEx.cfg 1 with HashFunction := 3 }

/-- 30 inputs, 30 nodes of which the tables choose the active ones, 2 classes. -/
def args : NetArgs Rat :=
  { layers := 2, sizes := [30, 2], types := [0, 1], batch := 1, rate := 1 / 10, dim := 30, k := [2, 1], l := [3, 1], rangePow := [4, 4], sparsity := [1/2, 1, 1/2, 1] }

theorem typed : args.Typed := by
  refine ⟨?_, rfl⟩
  intro j ty hj hty
  have : j = 0 ∨ j = 1 := by change (j : Int) < 2 at hj; omega
  rcases this with rfl | rfl
  · cases hty; exact .inl rfl
  · cases hty; exact .inr rfl

theorem params (j : Nat) (size k l rp : Int) (hj : (j : Int) < args.layers) (h1 : args.sizes[j]? = some size) (h2 : args.k[j]? = some k)
    (h3 : args.l[j]? = some l) (h4 : args.rangePow[j]? = some rp) : (0 < size ∧ 0 ≤ k ∧ 0 ≤ l ∧ 0 ≤ rp) ∧ HashParams cfg (args.inputs j) k l rp := by
  have hj' : j < 2 := by change (j : Int) < 2 at hj; omega
  match j, hj' with
  | 0, _ => cases h1; cases h2; cases h3; cases h4; exact ⟨by decide, by decide, (by decide : (30 : Int) ≤ 30 ∧ (30 : Int) ≤ 53 ∧ (0 : Int) < 2 * 3 ∧ (2 * 3 : Int) < 2 ^ 32)⟩
  | 1, _ => cases h1; cases h2; cases h3; cases h4; exact ⟨by decide, by decide, (by decide : (30 : Int) ≤ 30 ∧ (30 : Int) ≤ 53 ∧ (0 : Int) < 1 * 1 ∧ (1 * 1 : Int) < 2 ^ 32)⟩

theorem newOk : NewOk cfg args := by
  refine ⟨by decide, by decide, by decide, ?_, ?_⟩
  · intro j hj
    have hj' : j < 2 := by change (j : Int) < 2 at hj; omega
    exact ⟨hj', hj', hj', hj', hj', by show j < 4; omega⟩
  · intro j size k l rp hj h1 h2 h3 h4
    obtain ⟨⟨a, b, c, d⟩, e⟩ := params j size k l rp hj h1 h2 h3 h4
    exact ⟨by omega, b, c, d, e⟩

theorem layersOk (off : Nat) (h : off = 0 ∨ off = 2) : LayersOk cfg args off := by
  intro j size k l rp hj h1 h2 h3 h4
  obtain ⟨⟨a, -⟩, e⟩ := params j size k l rp hj h1 h2 h3 h4
  have hj' : j < 2 := by change (j : Int) < 2 at hj; omega
  rcases h with rfl | rfl <;> match j, hj' with
    | 0, _ => exact ⟨1/2, rfl, .inr ⟨fun h => absurd h (by decide), fun h => absurd h (by decide), fun _ h => absurd h (by decide), a, e⟩⟩
    | 1, _ => exact ⟨1, rfl, .inl ⟨by decide, by decide⟩⟩

/-- Thirty features. -/
def example1 : Example Rat := ⟨(List.range 30).map (fun (i : Nat) => ⟨(i : Int), (i : Rat) / 7⟩), [1]⟩

theorem fits (off : Nat) (h : off = 0 ∨ off = 2) (labels : List Int) : Fits cfg args off example1.Features labels := by
  refine ⟨?_, fun _ _ _ => ?_, ?_⟩
  · intro x hx
    unfold example1 at hx
    rw [List.mem_map] at hx
    obtain ⟨i, hi, rfl⟩ := hx
    rw [List.mem_range] at hi
    exact ⟨by show (0 : Int) ≤ (i : Int); omega, by show (i : Int) < 30; omega⟩
  · have : example1.Features.length = 30 := by unfold example1; rw [List.length_map, List.length_range]
    rw [this]
    exact ⟨by decide, by decide⟩
  · intro j sp size hj hsp hne ht hs
    have hj' : j < 2 := by change (j : Int) < 2 at hj; omega
    rcases h with rfl | rfl <;> match j, hj' with
      | 0, _ => exact absurd ht (by decide)
      | 1, _ => cases hsp; exact absurd hne (by decide)

end MinhashEx

-- a layer with minhash tables: training and prediction with thirty features, any memory and random source
example (w : World Rat) : ∃ p w' w'', Network.new MinhashEx.cfg 0 2 [30, 2] [0, 1] 1 (1 / 10) 30 [2, 1] [3, 1] [4, 4] [1/2, 1, 1/2, 1] w = .ok (p, w') ∧
    runCalls MinhashEx.cfg 0 0 [.train [MinhashEx.example1] 0 true true, .predict [MinhashEx.example1]] p w' = .ok (p, w'') :=
  C66_from_new (cfg := MinhashEx.cfg) rfl (by decide) 0 MinhashEx.newOk MinhashEx.typed (by decide) (MinhashEx.layersOk 0 (.inl rfl)) (MinhashEx.layersOk 2 (.inr rfl)) 0 _
    (by
      intro x hx
      simp only [List.mem_cons, List.not_mem_nil, or_false] at hx
      rcases hx with rfl | rfl
      · refine ⟨by decide, fun ex hex => ?_⟩
        obtain rfl := List.mem_singleton.mp hex
        exact MinhashEx.fits 0 (.inl rfl) _
      · refine ⟨by decide, fun ex hex => ?_⟩
        obtain rfl := List.mem_singleton.mp hex
        exact MinhashEx.fits 2 (.inr rfl) _) w

end Goslide.Props
