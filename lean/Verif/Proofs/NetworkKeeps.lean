import Verif.Proofs.LayerKeeps
import Verif.Model.Network
/-
`ProcessInput` and `PredictClass` change no network object.
-/
set_option linter.unusedSectionVars false
namespace Goslide.Network
open Goslide Node Lsh Configuration Layer Xcrepo
variable {F : Type} [GoFloat F]

/-- The network objects. -/
def nets (w : World F) : List (Network F) := w.networks

theorem nets_outer {m : WM F α} (h : Keeps outer m) : Keeps nets m := by
  intro w a w' hr
  have := h w a w' hr
  exact congrArg (fun (x : _ × _ × _ × _) => x.2.2.2) this

theorem nets_onHeap (m : NM F α) : Keeps nets (onHeap m : WM F α) := Keeps.onHeap (fun _ _ => rfl)
theorem nets_draw (m : Rng → Go (α × Rng)) : Keeps nets (draw m : WM F α) := Keeps.draw (fun _ _ => rfl)
theorem nets_constAt (s : Slice) (i : Int) : Keeps nets (constAt s i : WM F F) := by
  intro w a w' h
  unfold constAt at h
  cases hr : readCell w.consts s i with
  | error e => rw [hr] at h; cases h
  | ok v => rw [hr] at h; cases h; rfl
theorem nets_setConst (s : Slice) (i : Int) (c : F) : Keeps nets (setConst s i c : WM F Unit) := by
  intro w a w' h
  unfold setConst at h
  cases hr : writeCell w.consts s i c with
  | error e => rw [hr] at h; cases h
  | ok v => rw [hr] at h; cases h; rfl
theorem nets_layerPtr (s : Slice) (i : Int) : Keeps nets (layerPtr s i : WM F Ptr) := by
  intro w a w' h
  unfold layerPtr at h
  cases hr : readCell w.layerArrs s i with
  | error e => rw [hr] at h; cases h
  | ok v => rw [hr] at h; cases h; rfl
theorem nets_setLayerPtr (s : Slice) (i : Int) (p : Ptr) : Keeps nets (setLayerPtr s i p : WM F Unit) := by
  intro w a w' h
  unfold setLayerPtr at h
  cases hr : writeCell w.layerArrs s i p with
  | error e => rw [hr] at h; cases h
  | ok v => rw [hr] at h; cases h; rfl
theorem nets_allocLayer (x : Layer) : Keeps nets (allocLayer x : WM F Ptr) := by intro w a w' h; cases h; rfl
theorem nets_setLayer (p : Ptr) (x : Layer) : Keeps nets (setLayer p x : WM F Unit) := by intro w a w' h; cases h; rfl
theorem nets_setTables (p : Ptr) (x : LSH) : Keeps nets (setTables p x : WM F Unit) := by intro w a w' h; cases h; rfl
theorem nets_setInts (s : Slice) (l : List Int) : Keeps nets (setInts s l : WM F Unit) := by intro w a w' h; cases h; rfl
theorem nets_intsOf (s : Slice) : Keeps nets (intsOf s : WM F (List Int)) := by
  intro w a w' h
  unfold intsOf at h
  split at h
  · cases h; rfl
  · cases h

theorem nets_cloneLayer (p : Ptr) (c : Int) : Keeps nets (Layer.cloneIfNeeded p c : WM F Ptr) :=
  (Keeps.layer p).bind fun _ => Keeps.ite ((Keeps.layer p).bind fun _ => nets_allocLayer _) (Keeps.pure p)

theorem nets_select (cfg : Config F) (fuel : Nat) (x : Layer) (cur : List (Pair F)) (label : List Int) (sp : F) :
    Keeps nets (select cfg fuel x cur label sp : WM F _) := by
  unfold select
  refine Keeps.ite (Keeps.pure _) (Keeps.ite ?_ (Keeps.ite (Keeps.ite ?_ (Keeps.pure _)) (Keeps.ite (Keeps.ite ?_ (Keeps.pure _)) (Keeps.ite ?_ (Keeps.pure _)))))
  · refine (Keeps.tables _).bind fun _ => (Keeps.lift _).bind fun _ => Keeps.bind ?_ fun _ => Keeps.pure _
    intro w a w' h
    cases h
    rfl
  · exact (nets_draw _).bind fun _ => Keeps.pure _
  · exact (nets_onHeap _).bind fun _ => (nets_onHeap _).bind fun _ => (Keeps.lift _).bind fun _ => Keeps.pure _
  · exact (Keeps.tables _).bind fun _ => (Keeps.lift _).bind fun _ => (nets_intsOf _).bind fun _ => (nets_draw _).bind fun _ => Keeps.pure _

theorem nets_exponentiate (cowId : Int) (nodes norm : Slice) (inputId : Int) (m : F) :
    ∀ pairs, Keeps nets (exponentiate cowId nodes norm inputId m pairs : WM F (List (Pair F)))
  | [] => Keeps.pure []
  | _ :: rest =>
    (nets_onHeap _).bind fun _ => (nets_onHeap _).bind fun _ => (nets_onHeap _).bind fun _ =>
    (nets_constAt _ _).bind fun _ => (nets_setConst _ _ _).bind fun _ =>
    (nets_exponentiate cowId nodes norm inputId m rest).bind fun _ => Keeps.pure _

theorem nets_activations (cowId : Int) (x : Layer) (cur : List (Pair F)) (inputId : Int) (ids : List Int) :
    Keeps nets (activations cowId x cur inputId ids : WM F (List (Pair F))) :=
  Keeps.ite
    ((nets_setConst _ _ _).bind fun _ => (nets_onHeap _).bind fun _ => nets_exponentiate _ _ _ _ _ _)
    ((nets_onHeap _).bind fun _ => Keeps.pure _)

theorem nets_query (cfg : Config F) (fuel : Nat) (p : Ptr) (cowId : Int) (cur : List (Pair F)) (inputId : Int)
    (label : List Int) (sp : F) : Keeps nets (query cfg fuel p cowId cur inputId label sp : WM F _) :=
  (nets_cloneLayer _ _).bind fun _ => (Keeps.layer _).bind fun _ => (nets_select _ _ _ _ _ _).bind fun _ =>
    (nets_activations _ _ _ _ _).bind fun _ => Keeps.pure _

theorem nets_forward (cfg : Config F) (fuel : Nat) (cowId : Int) (hidden : Slice) (sparsity : List F) (off : Int)
    (inputId : Int) (label : List Int) :
    ∀ n j cur, Keeps nets (forward cfg fuel cowId hidden sparsity off inputId label n j cur : WM F _)
  | 0, _, _ => Keeps.pure []
  | n + 1, j, _ =>
    (nets_layerPtr _ _).bind fun _ => (Keeps.lift _).bind fun _ => (nets_query _ _ _ _ _ _ _ _).bind fun _ =>
      (nets_setLayerPtr _ _ _).bind fun _ =>
      (nets_forward cfg fuel cowId hidden sparsity off inputId label n (j + 1) _).bind fun _ => Keeps.pure _

theorem nets_getNodeById (p : Ptr) (i : Int) : Keeps nets (getNodeById p i : WM F Ptr) :=
  (Keeps.layer p).bind fun _ => nets_onHeap _

theorem nets_argMax (last : Ptr) (inputId : Int) :
    ∀ (l : List (Pair F)) (first : Bool) (m : F) (c : Int), Keeps nets (argMax last inputId l first m c : WM F Int)
  | [], _, _, _ => Keeps.pure _
  | _ :: rest, _, _, _ =>
    (nets_getNodeById _ _).bind fun _ => (nets_onHeap _).bind fun _ =>
      Keeps.ite (nets_argMax last inputId rest _ _ _) (nets_argMax last inputId rest _ _ _)

theorem nets_predictLoop (cfg : Config F) (fuel : Nat) (cowId : Int) (n : Network F) (last : Ptr) :
    ∀ examples i c, Keeps nets (predictLoop cfg fuel cowId n last examples i c : WM F Int)
  | [], _, _ => Keeps.pure _
  | _ :: rest, i, _ =>
    ((nets_forward _ _ _ _ _ _ _ _ _ _ _).bind fun _ => nets_argMax _ _ _ _ _ _).bind fun _ =>
      nets_predictLoop cfg fuel cowId n last rest (i + 1) _

theorem nets_backLayer (cfg : Config F) (cowId : Int) (la : Ptr) (isLast : Bool) (prev : Option Ptr) (ex : Example F)
    (cur : List (Pair F)) (lr : F) (inputId : Int) :
    ∀ l, Keeps nets (backLayer cfg cowId la isLast prev ex cur lr inputId l : WM F Unit)
  | [] => Keeps.pure ()
  | _ :: rest =>
    (nets_getNodeById _ _).bind fun _ =>
    (Keeps.ite
      (((Keeps.layer _).bind fun _ => Keeps.ite (Keeps.throw _) (nets_constAt _ _)).bind
        fun _ => (nets_onHeap _).bind fun _ => Keeps.pure ())
      (Keeps.pure ())).bind fun _ =>
    Keeps.bind (by
      cases prev with
      | none => exact (nets_onHeap _).bind fun _ => Keeps.pure ()
      | some q => exact (Keeps.layer _).bind fun _ => (nets_onHeap _).bind fun _ => Keeps.pure ())
    fun _ => nets_backLayer cfg cowId la isLast prev ex cur lr inputId rest

theorem nets_backward (cfg : Config F) (cowId : Int) (hidden : Slice) (numberOfLayers : Int) (ex : Example F) (lr : F)
    (inputId : Int) (acts : List (List (Pair F))) :
    ∀ n, Keeps nets (backward cfg cowId hidden numberOfLayers ex lr inputId acts n : WM F Unit)
  | 0 => Keeps.pure ()
  | n + 1 =>
    (nets_layerPtr _ _).bind fun _ => (Keeps.lift _).bind fun _ => (Keeps.lift _).bind fun _ =>
    (Keeps.ite (Keeps.pure _) ((nets_layerPtr _ _).bind fun _ => Keeps.pure _)).bind fun _ =>
    (nets_backLayer _ _ _ _ _ _ _ _ _ _).bind fun _ =>
    nets_backward cfg cowId hidden numberOfLayers ex lr inputId acts n

theorem nets_trainLoop (cfg : Config F) (fuel : Nat) (cowId : Int) (n : Network F) (lr : F) :
    ∀ examples i, Keeps nets (trainLoop cfg fuel cowId n lr examples i : WM F Unit)
  | [], _ => Keeps.pure _
  | _ :: rest, i =>
    (nets_forward _ _ _ _ _ _ _ _ _ _ _).bind fun _ => (nets_backward _ _ _ _ _ _ _ _ _).bind fun _ =>
      nets_trainLoop cfg fuel cowId n lr rest (i + 1)

theorem nets_finishNode (cfg : Config F) (cowId : Int) (lr : F) (la : Ptr) (rehash : Bool) (m : Int) :
    Keeps nets (finishNode cfg cowId lr la rehash m : WM F Unit) :=
  (nets_getNodeById _ _).bind fun _ => (nets_onHeap _).bind fun _ => (nets_onHeap _).bind fun _ =>
    Keeps.ite ((Keeps.layer _).bind fun _ => nets_outer (keeps_addToHashTable _ _ _ _ _)) (Keeps.pure ())

theorem nets_updateTable (cfg : Config F) (p : Ptr) (c : Int) : Keeps nets (updateTable cfg p c : WM F Ptr) :=
  (nets_cloneLayer _ _).bind fun _ => (Keeps.layer _).bind fun _ => (nets_outer (keeps_newHasher _ _ _)).bind fun _ =>
    (nets_setLayer _ _).bind fun _ => Keeps.pure _

theorem nets_finishLayer (cfg : Config F) (cowId : Int) (n : Network F) (lr : F) (rehash rebuild : Bool) (j : Int) :
    Keeps nets (finishLayer cfg cowId n lr rehash rebuild j : WM F Unit) := by
  refine (nets_layerPtr _ _).bind fun la => (Keeps.lift _).bind fun sp => ?_
  dsimp only
  have rest : Keeps nets (do
      rebuildLayer cfg cowId n.hiddenLayers j la (rebuild && GoFloat.lt sp GoFloat.one)
      let x ← layer la
      ((List.range x.nodes.len).map (fun (i : Nat) => (i : Int))).forM (finishNode cfg cowId lr la (rehash && GoFloat.lt sp GoFloat.one)) : WM F Unit) :=
    (Keeps.ite ((nets_updateTable _ _ _).bind fun _ => nets_setLayerPtr _ _ _) (Keeps.pure ())).bind fun _ =>
    (Keeps.layer _).bind fun _ => Keeps.forM (fun _ => nets_finishNode _ _ _ _ _ _) _
  exact Keeps.ite (((Keeps.layer _).bind fun _ => (Keeps.tables _).bind fun _ => nets_setTables _ _).bind fun _ => rest) ((Keeps.pure ()).bind fun _ => rest)

theorem nets_updateRandom (hidden : Slice) (n : Int) : Keeps nets (updateRandom hidden n : WM F Unit) :=
  Keeps.forM (fun _ => (nets_layerPtr _ _).bind fun _ => (Keeps.layer _).bind fun _ => (nets_intsOf _).bind fun _ =>
    (nets_draw _).bind fun _ => nets_setInts _ _) _

/-- The network that a call by `c` works on. -/
theorem clone_nets {p q : Ptr} {c : Int} {w w' : World F} {n : Network F} (hn : w.networks[p]? = some n)
    (h : Network.cloneIfNeeded p c w = .ok (q, w')) :
    if n.cowId = c then q = p ∧ w'.networks = w.networks else q = w.networks.length ∧ w'.networks = w.networks ++ [{ n with cowId := c }] := by
  have hd : Network.network p w = .ok (n, w) := by unfold Network.network; rw [deref_of hn]; rfl
  unfold Network.cloneIfNeeded at h
  replace h := M.bind_eq_ok h
  obtain ⟨x, w1, h1, h⟩ := h
  rw [hd] at h1
  cases h1
  by_cases hc : n.cowId = c
  · rw [if_neg (fun hne => hne hc)] at h
    cases h
    rw [if_pos hc]
    exact ⟨rfl, rfl⟩
  · rw [if_pos hc] at h
    unfold Network.clone at h
    replace h := M.bind_eq_ok h
    obtain ⟨y, w2, h2, h⟩ := h
    rw [hd] at h2
    cases h2
    unfold allocNetwork at h
    cases h
    rw [if_neg hc]
    exact ⟨rfl, rfl⟩

theorem processInput_nets {cfg : Config F} {fuel : Nat} {ne p' : Ptr} {c : Int} {es : List (Example F)} {iter : Int}
    {rehash rebuild : Bool} {x : F} {w w' : World F} {n : Network F} (hn : w.networks[ne]? = some n)
    (hr : processInput cfg fuel ne c es iter rehash rebuild w = .ok ((x, p'), w')) :
    if n.cowId = c then p' = ne ∧ w'.networks = w.networks else p' = w.networks.length ∧ w'.networks = w.networks ++ [{ n with cowId := c }] := by
  unfold processInput at hr
  replace hr := M.bind_eq_ok hr
  obtain ⟨q, w1, h1, hr⟩ := hr
  have hc := clone_nets hn h1
  replace hr := M.bind_eq_ok hr
  obtain ⟨m, w2, h2, hr⟩ := hr
  have e2 : w2 = w1 := by
    unfold Network.network at h2
    cases hd : deref w1.networks q with
    | error e => rw [hd] at h2; cases h2
    | ok v => rw [hd] at h2; cases h2; rfl
  subst e2
  have key : p' = q ∧ w'.networks = w2.networks := by
    by_cases hi : iter.tmod 6946 = 6945
    · rw [if_pos hi] at hr
      replace hr := M.bind_eq_ok hr
      obtain ⟨_, w3, h3, hr⟩ := hr
      have e3 := nets_updateRandom _ _ _ _ _ h3
      replace hr := M.bind_eq_ok hr
      obtain ⟨_, w4, h4, hr⟩ := hr
      have e4 := nets_trainLoop _ _ _ _ _ _ _ _ _ _ h4
      replace hr := M.bind_eq_ok hr
      obtain ⟨_, w5, h5, hr⟩ := hr
      have e5 := Keeps.forM (fun _ => nets_finishLayer _ _ _ _ _ _ _) _ _ _ _ h5
      cases hr
      exact ⟨rfl, e5.trans (e4.trans e3)⟩
    · rw [if_neg hi] at hr
      replace hr := M.bind_eq_ok hr
      obtain ⟨_, w4, h4, hr⟩ := hr
      have e4 := nets_trainLoop _ _ _ _ _ _ _ _ _ _ h4
      replace hr := M.bind_eq_ok hr
      obtain ⟨_, w5, h5, hr⟩ := hr
      have e5 := Keeps.forM (fun _ => nets_finishLayer _ _ _ _ _ _ _) _ _ _ _ h5
      cases hr
      exact ⟨rfl, e5.trans e4⟩
  rw [key.1, key.2]
  exact hc

theorem predictClass_nets {cfg : Config F} {fuel : Nat} {ne p' : Ptr} {c : Int} {es : List (Example F)} {m : Int} {w w' : World F} {n : Network F}
    (hn : w.networks[ne]? = some n) (hr : predictClass cfg fuel ne c es w = .ok ((m, p'), w')) :
    if n.cowId = c then p' = ne ∧ w'.networks = w.networks else p' = w.networks.length ∧ w'.networks = w.networks ++ [{ n with cowId := c }] := by
  unfold predictClass at hr
  replace hr := M.bind_eq_ok hr
  obtain ⟨q, w1, h1, hr⟩ := hr
  have hc := clone_nets hn h1
  replace hr := M.bind_eq_ok hr
  obtain ⟨k, w2, h2, hr⟩ := hr
  have e2 : w2 = w1 := by
    unfold Network.network at h2
    cases hd : deref w1.networks q with
    | error e => rw [hd] at h2; cases h2
    | ok v => rw [hd] at h2; cases h2; rfl
  subst e2
  replace hr := M.bind_eq_ok hr
  obtain ⟨_, w3, h3, hr⟩ := hr
  have e3 := nets_layerPtr _ _ _ _ _ h3
  replace hr := M.bind_eq_ok hr
  obtain ⟨_, w4, h4, hr⟩ := hr
  have e4 := nets_predictLoop _ _ _ _ _ _ _ _ _ _ _ h4
  cases hr
  have key : w'.networks = w2.networks := e4.trans e3
  rw [key]
  exact hc

end Goslide.Network
