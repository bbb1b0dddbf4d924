import Verif.Spec.Discontinuous
import Verif.Mesh.LoadLemmas
import Verif.Fem.DirichletLemmas

/-! # Lemmas on discontinuous meshes -/

namespace Mito.Load

open Mito.Topology Mito.Meshes Mito.Numbering

/-! ### nodes -/

/-- the nodes are alive: there are handles on their vertices -/
def Held (t : Topo) (nodes : List Node) : Prop := ∀ n ∈ nodes, 0 < t.extF 0 n.vertex

theorem Held.of_le {t t' : Topo} {nodes : List Node} (h : Held t nodes) (hle : ∀ v, t.extF 0 v ≤ t'.extF 0 v) : Held t' nodes :=
  fun n hn => lt_of_lt_of_le (h n hn) (hle n.vertex)

theorem makeNodes_held {t t' : Topo} {as : List Nat} {ns : List Node} (h : makeNodes t as = some (t', ns)) :
    Held t' ns ∧ ∀ v, t.extF 0 v ≤ t'.extF 0 v := by
  induction as generalizing t ns with
  | nil =>
    simp only [makeNodes, Option.some.injEq, Prod.mk.injEq] at h
    obtain ⟨rfl, rfl⟩ := h
    exact ⟨by simp [Held], fun _ => le_rfl⟩
  | cons a as ih =>
    rw [makeNodes] at h
    split at h
    · cases h
    · rename_i t1 n h1
      split at h
      · cases h
      · rename_i t2 ns2 h2
        simp only [Option.some.injEq, Prod.mk.injEq] at h
        obtain ⟨rfl, rfl⟩ := h
        obtain ⟨g1, g2⟩ := ih h2
        rw [makeNode] at h1
        split at h1
        · cases h1
        · rename_i t0 v h0
          simp only [Option.some.injEq, Prod.mk.injEq] at h1
          obtain ⟨rfl, rfl⟩ := h1
          have e0 : t0.extF = t.extF := by
            simp only [Topo.vertex, Topo.emplaceF] at h0
            split at h0
            · cases h0
            · split at h0
              · cases h0
              · simp only [Option.some.injEq, Prod.mk.injEq] at h0
                obtain ⟨rfl, -⟩ := h0
                rfl
          have e1 : ∀ w, t.extF 0 w ≤ (t0.setExtF 0 v (t0.extF 0 v + 1)).extF 0 w := by
            intro w
            simp only [Topo.setExtF, Function.update_self, e0]
            by_cases hw : w = v
            · subst hw; simp
            · simp [Function.update_of_ne hw]
          refine ⟨?_, fun w => (e1 w).trans (g2 w)⟩
          intro n hn
          rcases List.mem_cons.mp hn with rfl | hn
          · refine lt_of_lt_of_le ?_ (g2 _)
            simp [Topo.setExtF]
          · exact g1 n hn

theorem renewNodes_spec {t : Topo} (h : VReachable t) {k : Nat} (hf : Fresh t k) {as : List Nat} {ns : List Node} (hl : as.length = ns.length)
    (hh : Held t ns) : ∃ t', renewNodes t as ns = some (t', List.zipWith (fun a n => ⟨a, n.vertex⟩) as ns) ∧ VReachable t' ∧
      Fresh t' k ∧ t'.lvl = t.lvl ∧ ∀ v, t.extF 0 v ≤ t'.extF 0 v := by
  induction as generalizing t ns with
  | nil =>
    match ns, hl with
    | [], _ => exact ⟨t, rfl, h, hf, rfl, fun _ => le_rfl⟩
  | cons a as ih =>
    match ns, hl with
    | n :: ns, hl =>
      have h0 : ∀ w, t.extF 0 w ≤ (t.setExtF 0 n.vertex (t.extF 0 n.vertex + 1)).extF 0 w := by
        intro w
        simp only [Topo.setExtF, Function.update_self]
        by_cases hw : w = n.vertex
        · subst hw; simp
        · simp [Function.update_of_ne hw]
      have h1 : VReachable (t.setExtF 0 n.vertex (t.extF 0 n.vertex + 1)) := by
        refine reachable_step h (op := .holdF 0 n.vertex) rfl ?_
        have : 0 < t.refsF 0 n.vertex := by
          have := hh n (by simp)
          unfold Topo.refsF
          omega
        simp [Topology.step, this]
      obtain ⟨t', g1, g2, g3, g4, g5⟩ := ih (ns := ns) h1 (Fresh.of_same hf rfl rfl) (by simpa using hl)
        (fun m hm => lt_of_lt_of_le (hh m (by simp [hm])) (h0 _))
      exact ⟨t', by simp [renewNodes, g1], g2, g3, g4, fun v => (h0 v).trans (g5 v)⟩

theorem allSome_map {α β : Type} {f : α → Option β} {l : List α} {r : List β} (h : l.map f = r.map some) : allSome (l.map f) = some r := by
  rw [h]
  clear h
  induction r with
  | nil => rfl
  | cons b r ih => simp [allSome, ih]

/-! ### cells -/

theorem vertices_renewed {as : List Nat} {c : GCell} (h : as.length = c.nodes.length) :
    (renewed as c).nodes.map (·.vertex) = c.nodes.map (·.vertex) := by
  unfold renewed
  generalize c.nodes = ns at h
  induction as generalizing ns with
  | nil => match ns, h with
    | [], _ => rfl
  | cons a as ih => match ns, h with
    | n :: ns, h =>
      have := ih ns (by simpa using h)
      simpa using this

theorem ids_renewed {as : List Nat} {c : GCell} (h : as.length = c.nodes.length) : (renewed as c).nodes.map (·.id) = as := by
  unfold renewed
  generalize c.nodes = ns at h
  induction as generalizing ns with
  | nil => match ns, h with
    | [], _ => rfl
  | cons a as ih => match ns, h with
    | n :: ns, h =>
      have := ih ns (by simpa using h)
      simpa using this

/-- building a cell with nodes of its own is building the cell after counting the handles of the nodes -/
theorem makeCellDG_eq {t t1 : Topo} {nodes : List Node} {as index : List Nat} {ns : List Node}
    (h : index.map (fun i => nodes[i]?) = ns.map some) (hl : as.length = ns.length)
    (h1 : renewNodes t as ns = some (t1, List.zipWith (fun a n => ⟨a, n.vertex⟩) as ns)) {t2 : Topo} {c : GCell}
    (h2 : makeCell t1 nodes index = some (t2, c)) : makeCellDG t nodes as index = some (t2, renewed as c) ∧ c.nodes = ns := by
  have hv := vertices_renewed (as := as) (c := ⟨0, ns⟩) hl
  simp only [renewed] at hv
  simp only [makeCell, allSome_map h, mkCell] at h2
  simp only [makeCellDG, allSome_map h, h1, mkCell, hv]
  split at h2
  · cases h2
  · rename_i t3 c3 h3
    split at h3
    · cases h3
    · rename_i t4 o h4
      simp only [Option.some.injEq, Prod.mk.injEq] at h3
      obtain ⟨rfl, rfl⟩ := h3
      simp only [Option.some.injEq, Prod.mk.injEq] at h2
      obtain ⟨rfl, rfl⟩ := h2
      exact ⟨rfl, rfl⟩

theorem makeCell_extF {t t' : Topo} (h : Ok t) {nodes : List Node} (hv : ∀ n ∈ nodes, n.vertex ∈ (t.lvl 0).fps) {index : List Nat}
    (hl : index.length = 3) {c : GCell} {ns : List Node} (hns : index.map (fun i => nodes[i]?) = ns.map some)
    (hc : makeCell t nodes index = some (t', c)) : t'.extF = t.extF := by
  have hlen : ns.length = 3 := by
    have := congrArg List.length hns
    simpa [hl] using this.symm
  have hmem : ∀ n ∈ ns, n ∈ nodes := by
    intro n hn
    have : some n ∈ index.map fun i => nodes[i]? := by rw [hns]; exact List.mem_map_of_mem hn
    obtain ⟨i, -, e⟩ := List.mem_map.mp this
    exact List.mem_of_getElem? e
  match ns, hlen with
  | [x, y, z], _ =>
    simp only [makeCell, allSome_map hns, mkCell, List.map_cons, List.map_nil, Topo.fromVertices] at hc
    split at hc
    · cases hc
    · rename_i t3 c3 h3
      split at h3
      · cases h3
      · rename_i t4 o h4
        simp only [Option.some.injEq, Prod.mk.injEq] at h3
        obtain ⟨rfl, rfl⟩ := h3
        simp only [Option.some.injEq, Prod.mk.injEq] at hc
        obtain ⟨rfl, rfl⟩ := hc
        obtain ⟨-, le1, -⟩ := triangle_ok h (hv x (hmem x (by simp))) (hv y (hmem y (by simp))) (hv z (hmem z (by simp))) h4
        exact le1.extF

theorem index_nodes {nodes : List Node} {index : List Nat} (h : ∀ i ∈ index, i < nodes.length) :
    ∃ ns : List Node, index.map (fun i => nodes[i]?) = ns.map some ∧ ns.length = index.length ∧ ∀ n ∈ ns, n ∈ nodes := by
  induction index with
  | nil => exact ⟨[], rfl, rfl, by simp⟩
  | cons i index ih =>
    obtain ⟨ns, h1, h2, h3⟩ := ih fun j hj => h j (by simp [hj])
    have hi := h i (by simp)
    refine ⟨nodes[i] :: ns, ?_, by simp [h2], ?_⟩
    · rw [List.map_cons, List.map_cons, h1, List.getElem?_eq_getElem hi]
    · intro n hn
      rcases List.mem_cons.mp hn with rfl | hn
      · exact List.getElem_mem hi
      · exact h3 n hn

theorem makeCellsDG_spec {t : Topo} (h : VReachable t) {k : Nat} {nodes : List Node} (as cells : List (List Nat))
    (hal : List.Forall₂ (fun a c => a.length = c.length) as cells) (hh : Held t nodes)
    (hf : Fresh t (k + 58 * cells.length)) (hv : ∀ n ∈ nodes, n.vertex ∈ (t.lvl 0).fps) (hnd : (nodes.map (·.vertex)).Nodup)
    (hl : ∀ c ∈ cells, c.length = 3 ∧ (∀ i ∈ c, i < nodes.length) ∧ c.Nodup)
    (hd : cells.Pairwise fun c c' => vertexSetOf nodes c ≠ vertexSetOf nodes c')
    (hnew : ∀ f ∈ (t.lvl 2).fps, ∀ c ∈ cells, VS t 2 f ≠ vertexSetOf nodes c) :
    ∃ t' cs, makeCellsDG nodes t as cells = some (t', List.zipWith renewed as cs) ∧ VReachable t' ∧ Fresh t' k ∧ Grows t t' ∧
      List.Forall₂ (Loaded t' nodes) cells cs := by
  induction hal generalizing t with
  | nil => exact ⟨t, [], rfl, h, hf, Grows.refl t, .nil⟩
  | @cons a c as cells hac _ ih =>
    obtain ⟨h1, h2, h3⟩ := hl c (by simp)
    rw [List.pairwise_cons] at hd
    obtain ⟨ns, n1, n2, n3⟩ := index_nodes h2
    obtain ⟨t0, r1, r2, r3, r4, r5⟩ := renewNodes_spec (as := a) (ns := ns) h hf (by rw [hac, n2]) (fun n hn => hh n (n3 n hn))
    have hvs : ∀ f, VS t0 2 f = VS t 2 f := fun f => by
      have : t0 = { t with ext := t0.ext, extF := t0.extF, supply := t0.supply } := by
        cases t; cases t0; cases r4; rfl
      rw [this]
      rfl
    obtain ⟨t1, g, a1, a2, a3, a4, a5, a6⟩ := makeCell_spec r2 (k := k + 58 * cells.length) (r3.mono (by simp; omega))
      (fun n hn => by rw [r4]; exact hv n hn) hnd h1 h2 h3 fun f hf => by rw [hvs]; exact hnew f (r4 ▸ hf) c (by simp)
    have hx := makeCell_extF r2.ok.1 (fun n hn => by rw [r4]; exact hv n hn) h1 n1 a1
    have hg : Grows t t0 := (Grows.refl t).lvl r4
    obtain ⟨t2, cs, b1, b2, b3, b4, b5⟩ := ih a2 (hh.of_le fun v => by rw [hx]; exact r5 v) a3 (fun n hn => a4.fps 0 (by rw [r4]; exact hv n hn))
      (fun c hc => hl c (by simp [hc])) hd.2 (by
        intro f hf c' hc'
        rcases a6 f hf with hf' | e
        · have := hnew f (r4 ▸ hf') c' (by simp [hc'])
          rw [show VS t1 2 f = VS t0 2 f by simp only [VS]; rw [← vertexSet_le r2.ok.1.inv a4 hf']; rfl, hvs]
          exact this
        · rw [e]
          exact hd.1 c' hc')
    obtain ⟨e1, e2⟩ := makeCellDG_eq n1 (by rw [hac, n2]) r1 a1
    exact ⟨t2, g :: cs, by simp only [makeCellsDG, e1, b1, List.zipWith_cons_cons], b2, b3, hg.trans (a4.trans b4),
      .cons (a5.grows a2.ok.1.inv b4) b5⟩

end Mito.Load
