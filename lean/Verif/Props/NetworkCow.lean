import Verif.Proofs.NetworkKeeps
import Verif.Props.Network
import Verif.Spec.Train
/-
Properties of network/network.go: C70.
-/
set_option linter.unusedSectionVars false
namespace Goslide.Props
open Goslide Node Lsh Configuration Spec.Node Spec.Network Layer Network Xcrepo
variable {F : Type} [GoFloat F]

theorem mapM_some {f : α → Option β} {g : α → β} : ∀ {l : List α}, (∀ a ∈ l, f a = some (g a)) → l.mapM f = some (l.map g)
  | [], _ => rfl
  | a :: l, h => by
    rw [List.mapM_cons, h a List.mem_cons_self, mapM_some (fun b hb => h b (List.mem_cons_of_mem a hb))]
    rfl

/-- What is learned by the network with the layers `Q`. -/
theorem learned_at {w : World F} {p : Ptr} {n : Network F} {Q : List (State F)} (N : NetAt w p n Q) :
    learned w p = some (Q.map (fun g => (g.views.map View.params, g.tables, g.order))) := by
  unfold learned
  rw [N.obj]
  simp only [Option.bind_eq_bind, Option.bind_some]
  rw [N.layers.ptrs, Option.bind_some, List.mapM_map]
  refine mapM_some ?_
  intro g hg
  have S := N.layers.stored g hg
  have hps : (g.nodes.map Prod.fst).mapM (Spec.Node.params w.heap) = some (g.views.map View.params) := by
    unfold State.views
    rw [List.mapM_map, List.map_map]
    refine mapM_some ?_
    intro z hz
    have hm : z ∈ Q.flatMap State.nodes := List.mem_flatMap.mpr ⟨g, hg, hz⟩
    obtain ⟨k, hk⟩ := List.mem_iff_getElem?.mp hm
    have H := Group.handle N.layers.group k z.1 z.2 (by rw [List.getElem?_map, hk]; rfl) (by rw [List.getElem?_map, hk]; rfl)
    have hv := H.view
    unfold Spec.Node.view at hv
    split at hv
    · rename_i P T h1 h2
      have e := congrArg View.params (Option.some.inj hv)
      show Spec.Node.params w.heap z.1 = _
      rw [h1]
      exact congrArg some e
    · cases hv
  have ho : readSlice w.ints g.obj.randNode = some g.order := by
    obtain ⟨h1, h2, h3⟩ := S.order
    unfold readSlice
    simp [h1, h2, h3]
  show ((w.layers[g.ptr]?).bind _) = _
  rw [S.obj, Option.bind_some, S.nodes, Option.bind_some, hps, Option.bind_some, S.tables, Option.bind_some, ho]
  rfl

/-- A prediction by anybody leaves all that is learned. -/
theorem learned_predict [FloatOrder F] {cfg : Config F} {fuel : Nat} {ne p' : Ptr} {c : Int} {es : List (Example F)} {w w' : World F}
    {n : Network F} {Q : List (State F)} {res : Int} (N : NetAt w ne n Q) (hr : predictClass cfg fuel ne c es w = .ok ((res, p'), w')) :
    learned w' ne = learned w ne := by
  obtain ⟨Q', N', -, hs, -⟩ := C65_predict_keeps N hr
  rw [learned_at N, learned_at N']
  congr 1
  apply List.ext_getElem?
  intro k
  rw [List.getElem?_map, List.getElem?_map]
  by_cases hk : k < Q.length
  · have h1 := List.getElem?_eq_getElem hk
    have h2 := List.getElem?_eq_getElem (l := Q') (i := k) (by rw [hs.1]; exact hk)
    have e := hs.2 k _ _ h1 h2
    rw [h1, h2, Option.map_some, Option.map_some, e.params, e.tables, e.order]
  · rw [List.getElem?_eq_none (l := Q) (by omega), List.getElem?_eq_none (l := Q') (by rw [hs.1]; omega)]

/-! ### C70 -/

/-- Whether what the owner sees is the same before and after a training step by the cowId `c`. -/
def NetEx.unchanged (c : Int) : Option Bool := do
  let (p, w) ← (build 4 [1, 1, 1, 1]).toOption
  let (_, w') ← (processInput (LayerEx.cfg 4) 0 p c examples 0 false false w).toOption
  some (learned w' p == learned w p)

/-- C70 is false for `ProcessInput`: a training step by somebody else changes the parameters that the owner sees through the original
network (the network object is copied, but the copy has the same slice of layers). -/
theorem C70_train_false : ¬ ∀ (w w' : World Rat) (p p' : Ptr) (n : Network Rat) (c : Int) (es : List (Example Rat)) (x : Rat),
    NetEx.build 4 [1, 1, 1, 1] = .ok (p, w) → w.networks[p]? = some n → n.cowId ≠ c →
    processInput (LayerEx.cfg 4) 0 p c es 0 false false w = .ok ((x, p'), w') → learned w' p = learned w p := by
  intro hall
  have h : NetEx.unchanged 7 = some false := by decide +kernel
  have ho : (NetEx.build 4 [1, 1, 1, 1]).toOption.bind (fun z => z.2.networks[z.1]?.map Network.cowId) = some 0 := by decide +kernel
  unfold NetEx.unchanged at h
  cases hb : NetEx.build 4 [1, 1, 1, 1] with
  | error e => rw [hb] at h; cases h
  | ok z =>
    obtain ⟨p, w⟩ := z
    rw [hb] at h ho
    cases hp : processInput (LayerEx.cfg 4) 0 p 7 NetEx.examples 0 false false w with
    | error e =>
      simp only [Except.toOption, Option.bind_eq_bind, Option.bind_some, hp] at h
      cases h
    | ok r =>
      obtain ⟨⟨x, p'⟩, w'⟩ := r
      simp only [Except.toOption, Option.bind_eq_bind, Option.bind_some, hp] at h
      simp only [Except.toOption, Option.bind_some] at ho
      cases hn : w.networks[p]? with
      | none => rw [hn] at ho; cases ho
      | some n =>
        rw [hn] at ho
        have := hall w w' p p' n 7 _ x hb hn (by simp at ho; omega) hp
        rw [this] at h
        simp at h

/-- What holds of C70: the call works on a new network object with the cowId of the caller and no existing network object changes, but the
new object has the same slice of layers, so whatever is read through it is also read through the original; a prediction changes nothing that is
learned. Missing for C70: that training by somebody else leaves the parameters, which is false (`C70_train_false`). -/
theorem C70_cow_partial [FloatOrder F] {cfg : Config F} {fuel : Nat} {ne : Ptr} {c : Int} {es : List (Example F)} {w : World F} {n : Network F}
    (hn : w.networks[ne]? = some n) (hc : n.cowId ≠ c) :
    (∀ (iter : Int) (rehash rebuild : Bool) (x : F) (p' : Ptr) (w' : World F), processInput cfg fuel ne c es iter rehash rebuild w = .ok ((x, p'), w') →
      p' = w.networks.length ∧ w'.networks = w.networks ++ [{ n with cowId := c }] ∧ learned w' p' = learned w' ne) ∧
    (∀ (m : Int) (p' : Ptr) (w' : World F), predictClass cfg fuel ne c es w = .ok ((m, p'), w') →
      p' = w.networks.length ∧ w'.networks = w.networks ++ [{ n with cowId := c }] ∧ learned w' p' = learned w' ne ∧
      ∀ Q, NetAt w ne n Q → learned w' ne = learned w ne) := by
  have shared : ∀ (w' : World F), w'.networks = w.networks ++ [{ n with cowId := c }] → learned w' w.networks.length = learned w' ne := by
    intro w' h
    unfold learned
    rw [h, List.getElem?_append_right (Nat.le_refl _), List.getElem?_append_left (List.getElem?_eq_some_iff.mp hn).1, hn, Nat.sub_self]
    rfl
  constructor
  · intro iter rehash rebuild x p' w' hr
    have h := processInput_nets hn hr
    rw [if_neg hc] at h
    refine ⟨h.1, h.2, ?_⟩
    rw [h.1]
    exact shared w' h.2
  · intro m p' w' hr
    have h := predictClass_nets hn hr
    rw [if_neg hc] at h
    refine ⟨h.1, h.2, ?_, fun Q N => learned_predict N hr⟩
    rw [h.1]
    exact shared w' h.2

-- in the example network both calls by cowId 7 return and see two layers
example : (do
    let (p, w) ← (NetEx.build 4 [1, 1, 1, 1]).toOption
    let ((_, q), w) ← (processInput (LayerEx.cfg 4) 0 p 7 NetEx.examples 0 false false w).toOption
    let ((_, r), w) ← (predictClass (LayerEx.cfg 4) 0 p 7 NetEx.examples w).toOption
    some (p, q, r, (learned w p).map List.length) : Option (Ptr × Ptr × Ptr × Option Nat)) = some (0, 1, 2, some 2) := by decide +kernel

end Goslide.Props
