import Verif.Proofs.NetworkPredict
import Verif.Proofs.NetworkNew
import Verif.Props.Layer
import Verif.Props.Driver
import Verif.Model.Program
/-
Properties of network/network.go: C64, C65.
-/
set_option linter.unusedSectionVars false
namespace Goslide.Props
open Goslide Node Lsh Configuration Spec.Node Spec.Network Layer Network Xcrepo
variable {F : Type} [GoFloat F]

namespace NetEx

/-- A network with two layers (3 hidden nodes, 2 classes) and signed random projections. -/
def build (mode : Int) (sp : List Rat) : Go (Ptr × World Rat) :=
  Network.new (LayerEx.cfg mode) 0 2 [3, 2] [0, 1] 2 (1 / 10) 2 [1, 1] [1, 1] [6, 6] sp LayerEx.w0

def examples : List (Example Rat) :=
  [⟨[⟨0, 1⟩, ⟨1, 1/2⟩], [0]⟩, ⟨[⟨1, 2⟩], [1]⟩]

/-- The network and the number of correct predictions for the cowId `c`. -/
def count (mode : Int) (sp : List Rat) (c : Int) : Go Int := do
  let (p, w) ← build mode sp
  let ((k, _), _) ← predictClass (LayerEx.cfg mode) 0 p c examples w
  .ok k

end NetEx

/-! ### C64 -/

/-- C64. `PredictClass`, when it returns, returns a number between 0 and the number of examples (for every network, memory and
cowId). -/
theorem C64_bounds {cfg : Config F} {fuel : Nat} {ne p' : Ptr} {c : Int} {es : List (Example F)} {w w' : World F} {res : Int}
    (hr : predictClass cfg fuel ne c es w = .ok ((res, p'), w')) : 0 ≤ res ∧ res ≤ es.length := by
  have loop : ∀ (n : Network F) (last : Ptr) (es : List (Example F)) (i : Nat) (k : Int) (w : World F) (r : Int) (w' : World F),
      predictLoop cfg fuel c n last es i k w = .ok (r, w') → k ≤ r ∧ r ≤ k + es.length := by
    intro n last es
    induction es with
    | nil => intro i k w r w' h; cases h; simp
    | cons ex es ih =>
      intro i k w r w' h
      obtain ⟨cls, w1, -, h⟩ := M.bind_eq_ok h
      have := ih _ _ _ _ _ h
      rw [List.length_cons]
      split at this <;> omega
  obtain ⟨p, w1, -, h⟩ := M.bind_eq_ok hr
  replace h := M.bind_eq_ok h
  obtain ⟨n, w2, -, h⟩ := h
  replace h := M.bind_eq_ok h
  obtain ⟨last, w3, -, h⟩ := h
  replace h := M.bind_eq_ok h
  obtain ⟨k, w4, h1, h⟩ := h
  cases h
  have := loop _ _ _ _ _ _ _ _ h1
  omega

/-- C64, C39. The predictions of the network are counts, as `C39_proportion` requires. -/
theorem C64_counts (cfg : Config F) (fuel : Nat) : Spec.CountsCorrectly (Program.netApi cfg fuel) := by
  intro p es w k q w' h
  unfold Program.netApi at h
  dsimp only at h
  cases hr : predictClass cfg fuel p 0 es w with
  | error e => rw [hr] at h; cases h
  | ok x =>
    obtain ⟨⟨k', q'⟩, w1⟩ := x
    rw [hr] at h
    cases h
    exact C64_bounds hr

/-- C39 for the network of the code: every accuracy printed by an evaluation is a count between 0 and the number of
records it is divided by. -/
theorem C39_network (cfg : Config F) (fuel : Nat) (parseFloat : Bytes → Option F) (files : Bytes → Option Bytes) (n iter : Int)
    (hn : 0 ≤ n) (p : Ptr) (st st' : Driver.State F (World F))
    (h : Driver.evaluateSvm (Program.netApi cfg fuel) parseFloat files cfg n p iter st = .ok st') :
    ∃ lines, st'.log = st.log ++ lines ∧ ∀ l ∈ lines, Spec.IsProportion cfg.BatchSize n l :=
  C39_proportion _ (C64_counts cfg fuel) parseFloat files cfg n iter hn p st st' h

/-- C64. `PredictClass` counts the examples whose predicted class is among their labels, where the class predicted for an
example is the first largest output of the last layer (0 if it has no active node). The outputs are those of the
reference evaluation `outs`, which reads only the weights and biases that the network has before the call. -/
theorem C64_predict [FloatOrder F] {cfg : Config F} {fuel : Nat} {ne p' : Ptr} {c : Int} {es : List (Example F)} {w w' : World F}
    {n : Network F} {Q : List (State F)} {res : Int} (N : NetAt w ne n Q) (hr : predictClass cfg fuel ne c es w = .ok ((res, p'), w')) :
    ∃ classes, classes.length = es.length ∧ res = correct es classes ∧
      ∀ (k : Nat) (ex : Example F) (cls : Int), es[k]? = some ex → classes[k]? = some cls →
        ∃ S l, ActiveOn n.sparsity Q.length Q S ∧ (outs Q ex.Features S)[Q.length - 1]? = some l ∧ Classified l cls := by
  obtain ⟨classes, Q', h1, h2, -, -, -, -, -, -, -, h⟩ := predictClass_ok N hr
  refine ⟨classes, h1, h2, ?_⟩
  intro k ex cls hk hc
  obtain ⟨S, l, Qk, Qk', hs, hp, ho, hcl⟩ := h k ex cls hk hc
  refine ⟨S, l, ?_, ho, hcl⟩
  rw [N.count] at hp
  obtain ⟨a, b⟩ := selected_active hp
  refine ⟨a.trans hs.1, ?_⟩
  intro j g ids hg hi
  have hlt : j < Qk.length := by rw [hs.1]; exact (List.getElem?_eq_some_iff.mp hg).1
  have hl : Qk[j].nodes.length = g.nodes.length := by
    have := congrArg List.length (hs.2 j g Qk[j] hg (List.getElem?_eq_getElem hlt)).params
    simpa [State.views] using this
  have := b j _ ids (List.getElem?_eq_getElem hlt) hi
  rwa [hl] at this

theorem outs_dense {sparsity : List F} (h1 : ∀ sp ∈ sparsity, GoFloat.eq sp GoFloat.one = true) :
    ∀ {Q : List (State F)} {off : Nat} {S : List (List Int)} (_ : ActiveOn sparsity off Q S) (data : List (Pair F)),
      Q ≠ [] → (outs Q data S)[Q.length - 1]? = some (dense (Q.map State.shape) data)
  | [], _, _, _, _, h => absurd rfl h
  | g :: Q, off, [], A, _, _ => by cases A.1
  | g :: Q, off, ids :: S, A, data, _ => by
    obtain ⟨-, sp, hsp, hi⟩ := A.2 0 g ids rfl rfl
    have hids := hi (h1 sp (List.mem_of_getElem? hsp))
    have hv : g.nodes.length = g.views.length := by simp [State.views]
    rw [hv] at hids
    rw [outs_cons]
    cases Q with
    | nil => simp only [List.length_cons, List.length_nil]; simp [dense, State.shape, hids]
    | cons g1 Q =>
      have A' : ActiveOn sparsity (off + 1) (g1 :: Q) S := by
        refine ⟨by simpa using A.1, ?_⟩
        intro j g2 ids2 hg hi2
        have := A.2 (j + 1) g2 ids2 (by rw [List.getElem?_cons_succ]; exact hg) (by rw [List.getElem?_cons_succ]; exact hi2)
        rwa [show off + (j + 1) = off + 1 + j by omega] at this
      have := outs_dense h1 A' (outputs g.softmax g.views data ids) (by simp)
      simp only [List.length_cons, Nat.add_sub_cancel, List.getElem?_cons_succ] at this ⊢
      rw [this]
      simp [dense, State.shape, hids]

/-- C64 for full layers: if all sparsities are 1 then the predicted class is the first largest output of the ordinary
evaluation of the network, in which all nodes take part. -/
theorem C64_full [FloatOrder F] {cfg : Config F} {fuel : Nat} {ne p' : Ptr} {c : Int} {es : List (Example F)} {w w' : World F}
    {n : Network F} {Q : List (State F)} {res : Int} (N : NetAt w ne n Q) (hr : predictClass cfg fuel ne c es w = .ok ((res, p'), w'))
    (hsp : ∀ sp ∈ n.sparsity, GoFloat.eq sp GoFloat.one = true) (hQ : Q ≠ []) :
    ∃ classes, classes.length = es.length ∧ res = correct es classes ∧
      ∀ (k : Nat) (ex : Example F) (cls : Int), es[k]? = some ex → classes[k]? = some cls →
        Classified (dense (Q.map State.shape) ex.Features) cls := by
  obtain ⟨classes, h1, h2, h⟩ := C64_predict N hr
  refine ⟨classes, h1, h2, ?_⟩
  intro k ex cls hk hc
  obtain ⟨S, l, hA, ho, hcl⟩ := h k ex cls hk hc
  rw [outs_dense hsp hA ex.Features hQ] at ho
  cases ho
  exact hcl

-- networks built by `New` satisfy the hypothesis `NetAt`, and the calls succeed
example : ∃ p w n Q, NetEx.build 4 [1, 1, 1, 1] = .ok (p, w) ∧ NetAt w p n Q ∧ Q.length = 2 := by
  have h : (NetEx.build 4 [1, 1, 1, 1]).isOk = true := by decide +kernel
  cases hb : NetEx.build 4 [1, 1, 1, 1] with
  | error e => rw [hb] at h; cases h
  | ok x =>
    obtain ⟨p, w⟩ := x
    obtain ⟨n, Q, N, -, -, -, h1, -, -⟩ := new_net rfl hb
    exact ⟨p, w, n, Q, rfl, N, by have := N.count; omega⟩
example : NetEx.count 4 [1, 1, 1, 1] 0 = .ok 1 := by decide +kernel
example : NetEx.count 4 [1, 1, 1, 1/2] 7 = .ok 1 := by decide +kernel

/-! ### C65 -/

/-- C65. `PredictClass` with any cowId changes no weight, bias, Adam moment or gradient (`View.params`), no hash table
entry, no hasher and no random order: the network and the returned one both hold the layers `Q'`, which differ from `Q`
only in the per-input slots and the normalization constants. -/
theorem C65_predict_keeps [FloatOrder F] {cfg : Config F} {fuel : Nat} {ne p' : Ptr} {c : Int} {es : List (Example F)} {w w' : World F}
    {n : Network F} {Q : List (State F)} {res : Int} (N : NetAt w ne n Q) (hr : predictClass cfg fuel ne c es w = .ok ((res, p'), w')) :
    ∃ Q', NetAt w' ne n Q' ∧ NetAt w' p' { n with cowId := c } Q' ∧ SameAll c Q Q' ∧
      w'.lshs = w.lshs ∧ w'.ints = w.ints ∧ w'.heap.floats = w.heap.floats ∧ (n.cowId = c → p' = ne) := by
  obtain ⟨_, Q', -, -, hs, hn, hp, h1, h2, h3, h4, -⟩ := predictClass_ok N hr
  exact ⟨Q', hn, hp, hs, h1, h2, h3, fun h => (h4 h).1⟩

/-- C65 for full layers: predicting again, with any cowIds, any source of randomness and even other modes, gives the same
number. -/
theorem C65_repeatable [FloatOrder F] {cfg cfg2 : Config F} {fuel fuel2 : Nat} {ne p1 p2 : Ptr} {c1 c2 : Int} {es : List (Example F)}
    {w w1 w2 : World F} {n : Network F} {Q : List (State F)} {res1 res2 : Int} {rng mapRng : Rng} (N : NetAt w ne n Q)
    (hsp : ∀ sp ∈ n.sparsity, GoFloat.eq sp GoFloat.one = true) (hQ : Q ≠ [])
    (h1 : predictClass cfg fuel ne c1 es w = .ok ((res1, p1), w1))
    (h2 : predictClass cfg2 fuel2 p1 c2 es { w1 with rng := rng, mapRng := mapRng } = .ok ((res2, p2), w2)) : res2 = res1 := by
  obtain ⟨k1, l1, e1, hc1⟩ := C64_full N h1 hsp hQ
  obtain ⟨Q1, -, N1, hs, -⟩ := C65_predict_keeps N h1
  have N2 : NetAt { w1 with rng := rng, mapRng := mapRng } p1 { n with cowId := c1 } Q1 := N1.rng rng mapRng
  obtain ⟨k2, l2, e2, hc2⟩ := C64_full N2 h2 hsp (by intro h; rw [h] at hs; exact hQ (List.eq_nil_of_length_eq_zero hs.1.symm))
  have : k2 = k1 := by
    apply List.ext_getElem? 
    intro k
    by_cases hk : k < es.length
    · have g1 := List.getElem?_eq_getElem (l := k1) (i := k) (by omega)
      have g2 := List.getElem?_eq_getElem (l := k2) (i := k) (by omega)
      have a := hc1 k _ _ (List.getElem?_eq_getElem hk) g1
      have b := hc2 k _ _ (List.getElem?_eq_getElem hk) g2
      rw [dense_congr hs] at b
      rw [g1, g2, classified_unique a b]
    · rw [List.getElem?_eq_none (by omega), List.getElem?_eq_none (by omega)]
  rw [e1, e2, this]

-- the second prediction of the example network
example : (do
    let (p, w) ← NetEx.build 4 [1, 1, 1, 1]
    let ((a, q), w) ← predictClass (LayerEx.cfg 4) 0 p 7 NetEx.examples w
    let ((b, _), _) ← predictClass (LayerEx.cfg 4) 0 q 8 NetEx.examples w
    .ok (a, b) : Go (Int × Int)) = .ok (1, 1) := by decide +kernel

end Goslide.Props
