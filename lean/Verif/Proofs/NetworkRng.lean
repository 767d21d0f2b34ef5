import Verif.Model.Network
import Verif.Proofs.Shuffle
import Verif.Proofs.NodeBack
import Verif.Spec.Train
/-
Computations that do not use the outside world (random draws, map orders, hash seeds).
-/
set_option linter.unusedSectionVars false
namespace Goslide.Network
open Configuration Node Layer Xcrepo Spec.Network
variable {F : Type} [GoFloat F] {I : List (List Int) → List (List Int) → Prop}

/-- The computation depends on the memory only. -/
def Agree (I : List (List Int) → List (List Int) → Prop) (x : WM F α) : Prop :=
  ∀ w v, SameMemory I w v → SameOutcome I (x w) (x v)

theorem Agree.pure (a : α) : Agree I (pure a : WM F α) := fun _ _ h => ⟨rfl, h⟩

theorem Agree.throw (e : Panic) : Agree I (M.throw e : WM F α) := fun _ _ _ => rfl

theorem Agree.lift (x : Go α) : Agree I (M.lift x : WM F α) := fun w v h => by
  cases x with
  | ok a => exact ⟨rfl, h⟩
  | error e => exact rfl

theorem Agree.bind {x : WM F α} {f : α → WM F β} (hx : Agree I x) (hf : ∀ a, Agree I (f a)) : Agree I (x >>= f) := by
  intro w v h
  have hh := hx w v h
  show SameOutcome I (M.bind x f w) (M.bind x f v)
  unfold M.bind
  cases h1 : x w with
  | error e =>
    cases h2 : x v with
    | error e' => rw [h1, h2] at hh; exact hh
    | ok b => rw [h1, h2] at hh; exact hh.elim
  | ok a =>
    cases h2 : x v with
    | error e' => rw [h1, h2] at hh; exact hh.elim
    | ok b =>
      rw [h1, h2] at hh
      obtain ⟨a, wa⟩ := a
      obtain ⟨b, wb⟩ := b
      obtain ⟨rfl, hm⟩ := hh
      exact hf a wa wb hm

theorem Agree.ite {c : Prop} [Decidable c] {x y : WM F α} (hx : c → Agree I x) (hy : ¬ c → Agree I y) :
    Agree I (if c then x else y) := by
  by_cases h : c
  · rw [if_pos h]; exact hx h
  · rw [if_neg h]; exact hy h

theorem Agree.onHeap (m : NM F α) : Agree I (onHeap m : WM F α) := fun w v h => by
  unfold Layer.onHeap
  rw [← h.heap]
  cases m w.heap with
  | error e => exact rfl
  | ok a => exact ⟨rfl, rfl, h.ints, h.lshs, h.consts, h.layers, h.layerArrs, h.networks⟩

theorem Agree.layer (p : Ptr) : Agree I (layer p : WM F Layer) := fun w v h => by
  unfold Layer.layer
  rw [← h.layers]
  cases deref w.layers p with
  | error e => exact rfl
  | ok a => exact ⟨rfl, h⟩

theorem Agree.network (p : Ptr) : Agree I (network p : WM F (Network F)) := fun w v h => by
  unfold Network.network
  rw [← h.networks]
  cases deref w.networks p with
  | error e => exact rfl
  | ok a => exact ⟨rfl, h⟩

theorem Agree.tables (p : Ptr) : Agree I (tables p : WM F Lsh.LSH) := fun w v h => by
  unfold Layer.tables
  rw [← h.lshs]
  cases deref w.lshs p with
  | error e => exact rfl
  | ok a => exact ⟨rfl, h⟩

theorem Agree.constAt (s : Slice) (i : Int) : Agree I (constAt s i : WM F F) := fun w v h => by
  unfold Layer.constAt
  rw [← h.consts]
  cases readCell w.consts s i with
  | error e => exact rfl
  | ok a => exact ⟨rfl, h⟩

theorem Agree.setConst (s : Slice) (i : Int) (c : F) : Agree I (setConst s i c : WM F Unit) := fun w v h => by
  unfold Layer.setConst
  rw [← h.consts]
  cases writeCell w.consts s i c with
  | error e => exact rfl
  | ok a => exact ⟨rfl, h.heap, h.ints, h.lshs, rfl, h.layers, h.layerArrs, h.networks⟩

theorem Agree.layerPtr (s : Slice) (i : Int) : Agree I (layerPtr s i : WM F Ptr) := fun w v h => by
  unfold Network.layerPtr
  rw [← h.layerArrs]
  cases readCell w.layerArrs s i with
  | error e => exact rfl
  | ok a => exact ⟨rfl, h⟩

theorem Agree.setLayerPtr (s : Slice) (i : Int) (p : Ptr) : Agree I (setLayerPtr s i p : WM F Unit) := fun w v h => by
  unfold Network.setLayerPtr
  rw [← h.layerArrs]
  cases writeCell w.layerArrs s i p with
  | error e => exact rfl
  | ok a => exact ⟨rfl, h.heap, h.ints, h.lshs, h.consts, h.layers, rfl, h.networks⟩

theorem Agree.allocLayer (x : Layer) : Agree I (allocLayer x : WM F Ptr) := fun _ _ h =>
  ⟨congrArg List.length h.layers, h.heap, h.ints, h.lshs, h.consts, congrArg (· ++ [x]) h.layers, h.layerArrs, h.networks⟩

theorem Agree.allocNetwork (x : Network F) : Agree I (allocNetwork x : WM F Ptr) := fun _ _ h =>
  ⟨congrArg List.length h.networks, h.heap, h.ints, h.lshs, h.consts, h.layers, h.layerArrs, congrArg (· ++ [x]) h.networks⟩

theorem Agree.setTables (p : Ptr) (x : Lsh.LSH) : Agree I (setTables p x : WM F Unit) := fun _ _ h =>
  ⟨rfl, h.heap, h.ints, congrArg (·.set p x) h.lshs, h.consts, h.layers, h.layerArrs, h.networks⟩

theorem Agree.forM (f : α → WM F Unit) : ∀ (l : List α), (∀ a ∈ l, Agree I (f a)) → Agree I (l.forM f)
  | [], _ => Agree.pure ()
  | a :: l, h => by
    show Agree I (f a >>= fun _ => l.forM f)
    exact Agree.bind (h a (List.mem_cons_self)) (fun _ => Agree.forM f l (fun b hb => h b (List.mem_cons_of_mem _ hb)))

theorem Agree.cloneLayer (p : Ptr) (c : Int) : Agree I (Layer.cloneIfNeeded p c : WM F Ptr) :=
  (Agree.layer p).bind fun _ => Agree.ite
    (fun _ => (Agree.layer p).bind fun _ => Agree.allocLayer _) (fun _ => Agree.pure p)

theorem Agree.cloneNetwork (p : Ptr) (c : Int) : Agree I (Network.cloneIfNeeded p c : WM F Ptr) :=
  (Agree.network p).bind fun _ => Agree.ite
    (fun _ => (Agree.network p).bind fun _ => Agree.allocNetwork _) (fun _ => Agree.pure p)

theorem Agree.exponentiate (cowId : Int) (nodes norm : Slice) (inputId : Int) (m : F) :
    ∀ pairs, Agree I (exponentiate cowId nodes norm inputId m pairs : WM F (List (Pair F)))
  | [] => Agree.pure []
  | _ :: rest =>
    (Agree.onHeap _).bind fun _ => (Agree.onHeap _).bind fun _ => (Agree.onHeap _).bind fun _ =>
    (Agree.constAt _ _).bind fun _ => (Agree.setConst _ _ _).bind fun _ =>
    (Agree.exponentiate cowId nodes norm inputId m rest).bind fun _ => Agree.pure _

theorem Agree.activations (cowId : Int) (x : Layer) (cur : List (Pair F)) (inputId : Int) (ids : List Int) :
    Agree I (activations cowId x cur inputId ids : WM F (List (Pair F))) :=
  Agree.ite
    (fun _ => (Agree.setConst _ _ _).bind fun _ => (Agree.onHeap _).bind fun _ => Agree.exponentiate _ _ _ _ _ _)
    (fun _ => (Agree.onHeap _).bind fun _ => Agree.pure _)

theorem Agree.query (cfg : Config F) (fuel : Nat) (p : Ptr) (cowId : Int) (cur : List (Pair F)) (inputId : Int)
    (label : List Int) (sp : F) (h : GoFloat.eq sp GoFloat.one = true) :
    Agree I (query cfg fuel p cowId cur inputId label sp : WM F _) :=
  (Agree.cloneLayer _ _).bind fun l => (Agree.layer l).bind fun x =>
    Agree.bind (by
      unfold select
      exact Agree.ite (fun _ => Agree.pure _) (fun c => (c h).elim))
      fun _ => (Agree.activations _ _ _ _ _).bind fun _ => Agree.pure _

theorem Agree.lift' {x : Go α} {f : α → WM F β} (hf : ∀ a, x = .ok a → Agree I (f a)) :
    Agree I (M.lift x >>= f : WM F β) := by
  cases x with
  | ok a => exact hf a rfl
  | error e => exact fun _ _ _ => rfl

theorem goGet_mem {l : List α} {i : Int} {a : α} (h : goGet l i = .ok a) : a ∈ l := by
  unfold goGet at h
  split at h
  · cases h
  · split at h
    · rename_i hs
      cases h
      exact List.mem_of_getElem? hs
    · cases h

theorem Agree.forward (cfg : Config F) (fuel : Nat) (cowId : Int) (hidden : Slice) (sparsity : List F) (off : Int)
    (inputId : Int) (label : List Int) (hs : Full sparsity) :
    ∀ n j cur, Agree I (forward cfg fuel cowId hidden sparsity off inputId label n j cur : WM F _)
  | 0, _, _ => Agree.pure []
  | n + 1, j, _ =>
    (Agree.layerPtr _ _).bind fun _ => Agree.lift' fun sp h =>
      (Agree.query _ _ _ _ _ _ _ _ (hs sp (goGet_mem h)).1).bind fun _ =>
      (Agree.setLayerPtr _ _ _).bind fun _ =>
      (Agree.forward cfg fuel cowId hidden sparsity off inputId label hs n (j + 1) _).bind fun _ => Agree.pure _

theorem Agree.getNodeById (p : Ptr) (i : Int) : Agree I (getNodeById p i : WM F Ptr) :=
  (Agree.layer p).bind fun _ => Agree.onHeap _

theorem Agree.argMax (last : Ptr) (inputId : Int) :
    ∀ (l : List (Pair F)) (first : Bool) (m : F) (c : Int), Agree I (argMax last inputId l first m c : WM F Int)
  | [], _, _, _ => Agree.pure _
  | _ :: rest, _, _, _ =>
    (Agree.getNodeById _ _).bind fun _ => (Agree.onHeap _).bind fun _ =>
      Agree.ite (fun _ => Agree.argMax last inputId rest _ _ _) (fun _ => Agree.argMax last inputId rest _ _ _)

theorem Agree.predictLoop (cfg : Config F) (fuel : Nat) (cowId : Int) (n : Network F) (last : Ptr) (hs : Full n.sparsity) :
    ∀ examples i c, Agree I (predictLoop cfg fuel cowId n last examples i c : WM F Int)
  | [], _, _ => Agree.pure _
  | _ :: rest, i, _ =>
    ((Agree.forward _ _ _ _ _ _ _ _ hs _ _ _).bind fun _ => Agree.argMax _ _ _ _ _ _).bind fun _ =>
      Agree.predictLoop cfg fuel cowId n last hs rest (i + 1) _

theorem Agree.backLayer (cfg : Config F) (cowId : Int) (la : Ptr) (isLast : Bool) (prev : Option Ptr) (ex : Example F)
    (cur : List (Pair F)) (lr : F) (inputId : Int) :
    ∀ l, Agree I (backLayer cfg cowId la isLast prev ex cur lr inputId l : WM F Unit)
  | [] => Agree.pure ()
  | _ :: rest =>
    (Agree.getNodeById _ _).bind fun _ =>
    (Agree.ite
      (fun _ => ((Agree.layer _).bind fun _ => Agree.ite (fun _ => Agree.throw _) (fun _ => Agree.constAt _ _)).bind
        fun _ => (Agree.onHeap _).bind fun _ => Agree.pure ())
      (fun _ => Agree.pure ())).bind fun _ =>
    Agree.bind (by
      cases prev with
      | none => exact (Agree.onHeap _).bind fun _ => Agree.pure ()
      | some q => exact (Agree.layer _).bind fun _ => (Agree.onHeap _).bind fun _ => Agree.pure ())
    fun _ => Agree.backLayer cfg cowId la isLast prev ex cur lr inputId rest

theorem Agree.backward (cfg : Config F) (cowId : Int) (hidden : Slice) (numberOfLayers : Int) (ex : Example F) (lr : F)
    (inputId : Int) (acts : List (List (Pair F))) :
    ∀ n, Agree I (backward cfg cowId hidden numberOfLayers ex lr inputId acts n : WM F Unit)
  | 0 => Agree.pure ()
  | n + 1 =>
    (Agree.layerPtr _ _).bind fun _ => (Agree.lift _).bind fun _ => (Agree.lift _).bind fun _ =>
    (Agree.ite (fun _ => Agree.pure _) (fun _ => (Agree.layerPtr _ _).bind fun _ => Agree.pure _)).bind fun _ =>
    (Agree.backLayer _ _ _ _ _ _ _ _ _ _).bind fun _ =>
    Agree.backward cfg cowId hidden numberOfLayers ex lr inputId acts n

theorem Agree.trainLoop (cfg : Config F) (fuel : Nat) (cowId : Int) (n : Network F) (lr : F) (hs : Full n.sparsity) :
    ∀ examples i, Agree I (trainLoop cfg fuel cowId n lr examples i : WM F Unit)
  | [], _ => Agree.pure _
  | _ :: rest, i =>
    (Agree.forward _ _ _ _ _ _ _ _ hs _ _ _).bind fun _ => (Agree.backward _ _ _ _ _ _ _ _ _).bind fun _ =>
      Agree.trainLoop cfg fuel cowId n lr hs rest (i + 1)

theorem Agree.finishNode (cfg : Config F) (cowId : Int) (lr : F) (la : Ptr) (m : Int) :
    Agree I (finishNode cfg cowId lr la false m : WM F Unit) :=
  (Agree.getNodeById _ _).bind fun _ => (Agree.onHeap _).bind fun _ => (Agree.onHeap _).bind fun _ => Agree.pure ()

theorem Agree.finishLayer (cfg : Config F) (cowId : Int) (n : Network F) (lr : F) (rehash rebuild : Bool) (j : Int)
    (hs : Full n.sparsity) : Agree I (finishLayer cfg cowId n lr rehash rebuild j : WM F Unit) := by
  refine (Agree.layerPtr _ _).bind fun la => Agree.lift' fun sp h => ?_
  rw [(hs sp (goGet_mem h)).2]
  dsimp only
  rw [Bool.and_false, Bool.and_false, if_neg Bool.false_ne_true]
  exact (Agree.pure ()).bind fun _ => (Agree.layer _).bind fun _ =>
    Agree.forM _ _ fun _ _ => Agree.finishNode _ _ _ _ _

theorem readSlice_lengths {a b : List (List Int)} (h : SameLengths a b) (s : Slice) :
    (readSlice a s).map List.length = (readSlice b s).map List.length := by
  have he : ∀ i : Nat, (a[i]?).map List.length = (b[i]?).map List.length := by
    intro i
    rw [← List.getElem?_map, ← List.getElem?_map, h]
  have := he s.arr
  unfold readSlice
  by_cases h0 : s.len = 0
  · rw [if_pos h0, if_pos h0]
  · rw [if_neg h0, if_neg h0]
    cases ha : a[s.arr]? with
    | none =>
      cases hb : b[s.arr]? with
      | none => rfl
      | some y => rw [ha, hb] at this; exact nomatch this
    | some x =>
      cases hb : b[s.arr]? with
      | none => rw [ha, hb] at this; exact nomatch this
      | some y =>
        rw [ha, hb] at this
        have hl : x.length = y.length := Option.some.inj this
        dsimp only
        rw [hl]
        by_cases hc : s.off + s.len ≤ y.length
        · rw [if_pos hc, if_pos hc]
          simp only [Option.map_some, List.length_take, List.length_drop, hl]
        · rw [if_neg hc, if_neg hc]

theorem Agree.updateRandomNodes (p : Ptr) : Agree SameLengths (updateRandomNodes p : WM F Unit) := by
  refine (Agree.layer p).bind fun x => ?_
  intro w v h
  have hr := readSlice_lengths h.ints x.randNode
  show SameOutcome _ (M.bind (intsOf x.randNode) _ w) (M.bind (intsOf x.randNode) _ v)
  unfold M.bind intsOf
  cases h1 : readSlice w.ints x.randNode with
  | none =>
    cases h2 : readSlice v.ints x.randNode with
    | none => exact rfl
    | some y => rw [h1, h2] at hr; exact nomatch hr
  | some a =>
    cases h2 : readSlice v.ints x.randNode with
    | none => rw [h1, h2] at hr; exact nomatch hr
    | some b =>
      rw [h1, h2] at hr
      have hl : a.length = b.length := Option.some.inj hr
      show SameOutcome _ (M.bind (draw (shuffleNodes x.nodes.len a)) _ w) (M.bind (draw (shuffleNodes x.nodes.len b)) _ v)
      unfold M.bind draw shuffleNodes
      by_cases hn : x.nodes.len ≤ a.length
      · rw [if_pos hn, if_pos (hl ▸ hn)]
        refine ⟨rfl, h.heap, ?_, h.lshs, h.consts, h.layers, h.layerArrs, h.networks⟩
        show List.map _ (List.set _ _ _) = List.map _ (List.set _ _ _)
        rw [List.map_set, List.map_set, (shuffleFrom_perm _ _ _).length_eq, (shuffleFrom_perm _ _ _).length_eq, hl]
        exact congrArg (·.set x.randNode.arr b.length) h.ints
      · rw [if_neg hn, if_neg (hl ▸ hn)]
        exact rfl

theorem Agree.updateRandom (hidden : Slice) (n : Int) : Agree SameLengths (updateRandom hidden n : WM F Unit) :=
  Agree.forM _ _ fun _ _ => (Agree.layerPtr _ _).bind fun _ => Agree.updateRandomNodes _

/-- The network object that a call works on has the sparsities of the original. -/
theorem cloneNetwork_sparsity {p q : Ptr} {c : Int} {w w' : World F} {n m : Network F}
    (hn : w.networks[p]? = some n) (h : Network.cloneIfNeeded p c w = .ok (q, w')) (hm : w'.networks[q]? = some m) :
    m.sparsity = n.sparsity := by
  have hd : Network.network p w = .ok (n, w) := by unfold Network.network; rw [deref_of hn]; rfl
  unfold Network.cloneIfNeeded at h
  replace h := M.bind_eq_ok h
  obtain ⟨x, w1, h1, h⟩ := h
  rw [hd] at h1
  cases h1
  by_cases hc : n.cowId ≠ c
  · rw [if_pos hc] at h
    unfold Network.clone at h
    replace h := M.bind_eq_ok h
    obtain ⟨y, w2, h2, h⟩ := h
    rw [hd] at h2
    cases h2
    unfold allocNetwork at h
    cases h
    rw [List.getElem?_concat_length] at hm
    cases hm
    rfl
  · rw [if_neg hc] at h
    cases h
    rw [hn] at hm
    cases hm
    rfl

theorem Agree.guard {x : WM F α} {f : α → WM F β} {w v : World F} (h : SameMemory I w v) (hx : Agree I x)
    (hf : ∀ a w1, x w = .ok (a, w1) → ∀ v1, SameMemory I w1 v1 → SameOutcome I (f a w1) (f a v1)) :
    SameOutcome I ((x >>= f) w) ((x >>= f) v) := by
  have hh := hx w v h
  show SameOutcome I (M.bind x f w) (M.bind x f v)
  unfold M.bind
  cases h1 : x w with
  | error e =>
    cases h2 : x v with
    | error e' => rw [h1, h2] at hh; exact hh
    | ok b => rw [h1, h2] at hh; exact hh.elim
  | ok a =>
    cases h2 : x v with
    | error e' => rw [h1, h2] at hh; exact hh.elim
    | ok b =>
      rw [h1, h2] at hh
      obtain ⟨a, wa⟩ := a
      obtain ⟨b, wb⟩ := b
      obtain ⟨rfl, hm⟩ := hh
      exact hf a wa h1 wb hm

theorem Agree.withNetwork {f : Ptr → Network F → WM F β} {w v : World F} (h : SameMemory I w v) {p : Ptr} {c : Int}
    {n : Network F} (hn : w.networks[p]? = some n) (hf : ∀ q m, m.sparsity = n.sparsity → Agree I (f q m)) :
    SameOutcome I ((do let q ← Network.cloneIfNeeded p c; let m ← Network.network q; f q m : WM F β) w)
      ((do let q ← Network.cloneIfNeeded p c; let m ← Network.network q; f q m : WM F β) v) := by
  refine Agree.guard h (Agree.cloneNetwork p c) fun q w1 h1 v1 hm1 => ?_
  refine Agree.guard hm1 (Agree.network q) fun m w2 h2 v2 hm2 => ?_
  refine hf q m ?_ w2 v2 hm2
  unfold Network.network at h2
  cases hq : w1.networks[q]? with
  | none => unfold deref at h2; rw [hq] at h2; exact nomatch h2
  | some m' =>
    rw [deref_of hq] at h2
    cases h2
    exact cloneNetwork_sparsity hn h1 hq

theorem processInput_agree (cfg : Config F) (fuel : Nat) {ne : Ptr} {cowId : Int} {examples : List (Example F)} {iter : Int}
    {rehash rebuild : Bool} {w v : World F} {n : Network F} (hn : w.networks[ne]? = some n) (hs : Full n.sparsity)
    (hI : iter.tmod 6946 = 6945 → ∀ s k, Agree I (updateRandom s k : WM F Unit)) (h : SameMemory I w v) :
    SameOutcome I (processInput cfg fuel ne cowId examples iter rehash rebuild w)
      (processInput cfg fuel ne cowId examples iter rehash rebuild v) := by
  refine Agree.withNetwork h hn fun q m hm => ?_
  have hm' : Full m.sparsity := hm ▸ hs
  have rest : Agree I (do
      trainLoop cfg fuel cowId m (stepSize cfg m.learningRate iter) examples 0
      ((List.range m.hiddenLayers.len).map (fun (i : Nat) => (i : Int))).forM
        (finishLayer cfg cowId m (stepSize cfg m.learningRate iter) rehash rebuild)
      pure (GoFloat.zero, q) : WM F (F × Ptr)) :=
    (Agree.trainLoop _ _ _ _ _ hm' _ _).bind fun _ =>
    (Agree.forM _ _ fun _ _ => Agree.finishLayer _ _ _ _ _ _ _ hm').bind fun _ => Agree.pure _
  exact Agree.ite (fun hc => (hI hc _ _).bind fun _ => rest) (fun _ => (Agree.pure ()).bind fun _ => rest)

theorem predictClass_agree (cfg : Config F) (fuel : Nat) {ne : Ptr} {cowId : Int} {examples : List (Example F)}
    {w v : World F} {n : Network F} (hn : w.networks[ne]? = some n) (hs : Full n.sparsity) (h : SameMemory I w v) :
    SameOutcome I (predictClass cfg fuel ne cowId examples w) (predictClass cfg fuel ne cowId examples v) := by
  refine Agree.withNetwork h hn fun q m hm => ?_
  exact (Agree.layerPtr _ _).bind fun _ => (Agree.predictLoop _ _ _ _ _ (hm ▸ hs) _ _ _).bind fun _ => Agree.pure _

end Goslide.Network
