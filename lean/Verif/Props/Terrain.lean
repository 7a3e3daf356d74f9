import Verif.Props.Profile
import Verif.Props.Anticline
import Verif.Props.Interpolate
import Verif.Model.Examples

/-!
# C137: surfaces given at the nodes of the base mesh
-/

namespace Gridder
open Spec

namespace Spec

/-- Seen along the stacking axis, three of the points are not on one line; `i` and `j` are the other two axes. -/
def Spreads (i j : Fin 3) (data : List (Fin 3 → ℝ)) : Prop :=
  ∃ a ∈ data, ∃ b ∈ data, ∃ c ∈ data, (b i - a i) * (c j - a j) ≠ (b j - a j) * (c i - a i)

/-- No two of the points lie at different heights over the same place. -/
def OneHeight (axis : Fin 3) (data : List (Fin 3 → ℝ)) : Prop :=
  ∀ q ∈ data, ∀ q' ∈ data, (∀ k, k ≠ axis → q k = q' k) → q axis = q' axis

/-- What is assumed of scipy's `LinearNDInterpolator`: it accepts points that are not all on one line, and gives back the
height of a data point at its place. -/
structure Reproduces (o : InterpOracle ℝ) : Prop where
  builds : ∀ (axis i j : Fin 3) data, i < j → i ≠ axis → j ≠ axis → Spreads i j data → ∃ f, o.linear [i, j] data = .ok f
  at_data : ∀ (axis i j : Fin 3) data f, i < j → i ≠ axis → j ≠ axis → o.linear [i, j] data = .ok f →
    OneHeight axis data → ∀ q ∈ data, ∀ p, p i = q i → p j = q j → f p = some (q axis)

/-- The data give the height `h p` over every point `p` of the base: a surface with a point over each of them, or a line
given in increasing order with a point at each of their positions. -/
inductive Gives (axis : Fin 3) (base data : List (Fin 3 → ℝ)) (h : (Fin 3 → ℝ) → ℝ) : Prop
  | surface (i j : Fin 3) (hij : i < j) (hi : i ≠ axis) (hj : j ≠ axis) (spread : Spreads i j data)
      (one : OneHeight axis data)
      (over : ∀ p ∈ base, ∃ q ∈ data, (∀ k, k ≠ axis → q k = p k) ∧ q axis = h p)
  | line (i : Fin 3) (hl : DataLine axis i data) (inc : Increasing i data)
      (over : ∀ p ∈ base, ∃ q ∈ data, q i = p i ∧ q axis = h p)

/-- An argument of `add` and the profile it amounts to. -/
inductive Amounts (axis : Fin 3) (base : List (Fin 3 → ℝ)) : AddArg ℝ → Profile → Prop
  | height (f : (Fin 3 → ℝ) → ℝ) : Amounts axis base (.callable fun pts => .ok (.inr (pts.map f))) (.height f)
  | thick (a : ℝ) : Amounts axis base (.scalar a) (.thick a)
  | dataset {data : List (Fin 3 → ℝ)} {h : (Fin 3 → ℝ) → ℝ} (g : Gives axis base data h) :
      Amounts axis base (.dataset data) (.height h)
  | array {data : List (Fin 3 → ℝ)} {h : (Fin 3 → ℝ) → ℝ} (g : Gives axis base data h) :
      Amounts axis base (.array2 3 data) (.height h)

end Spec

theorem spreads_varies {i j : Fin 3} {data : List (V3 ℝ)} (h : Spreads i j data) :
    varies data i = true ∧ varies data j = true := by
  obtain ⟨a, ha, b, hb, c, hc, hne⟩ := h
  rw [varies_iff, varies_iff]
  constructor
  · by_contra hn
    push Not at hn
    exact hne (by rw [hn b hb a ha, hn c hc a ha]; ring)
  · by_contra hn
    push Not at hn
    exact hne (by rw [hn b hb a ha, hn c hc a ha]; ring)

theorem idx_surface {axis i j : Fin 3} {data : List (V3 ℝ)} (hij : i < j) (hi : i ≠ axis) (hj : j ≠ axis)
    (h1 : varies data i = true) (h2 : varies data j = true) :
    ((List.finRange 3).filter fun k => k ≠ axis ∧ varies data k) = [i, j] := by
  have e : ((List.finRange 3).filter fun k => k ≠ axis ∧ varies data k) =
      (List.finRange 3).filter fun k => k ≠ axis := by
    apply List.filter_congr
    intro k _
    by_cases hka : k = axis
    · simp [hka]
    · have : k = i ∨ k = j := by
        clear h1 h2; revert i j axis k; decide
      rcases this with rfl | rfl <;> simp [hka, h1, h2]
  rw [e]
  clear e h1 h2
  revert i j axis; decide

/-- Given heights are the ones interpolated. -/
theorem interpolate_gives {o : InterpOracle ℝ} (ho : Reproduces o) {axis : Fin 3} {base data : List (V3 ℝ)}
    {h : V3 ℝ → ℝ} (hb : base ≠ []) (g : Gives axis base data h) (ex : Option String) :
    interpolate o axis base data ex = .ok (base.map h) := by
  cases g with
  | surface i j hij hi hj spread one over =>
    obtain ⟨v1, v2⟩ := spreads_varies spread
    obtain ⟨f, hf⟩ := ho.builds axis i j data hij hi hj spread
    have val : ∀ p ∈ base, f p = some (h p) := by
      intro p hp
      obtain ⟨q, hq, hk, hh⟩ := over p hp
      rw [← hh]
      exact ho.at_data axis i j data f hij hi hj hf one q hq p (hk i hi).symm (hk j hj).symm
    simp only [interpolate, idx_surface hij hi hj v1 v2]
    rw [if_pos (by simp)]
    simp only [hf]
    have hno : ¬ (base.map f).any Option.isNone = true := by
      rw [List.any_map, List.any_eq_true]
      rintro ⟨p, hp, hc⟩
      simp [val p hp] at hc
    rw [if_neg hno]
    congr 1
    apply List.map_congr_left
    intro p hp
    rw [val p hp]; rfl
  | line i hl inc over =>
    obtain ⟨h1, _, _, h4, _⟩ := C67_line_partial o axis i base data ex hl inc hb
    obtain ⟨vals, hv⟩ := h4 (by
      intro p hp
      obtain ⟨q, hq, hk, _⟩ := over p hp
      exact ⟨⟨q, hq, hk.le⟩, ⟨q, hq, hk.ge⟩⟩)
    obtain ⟨hlen, hval⟩ := h1 vals hv
    rw [hv]
    congr 1
    apply List.ext_getElem? fun j => ?_
    rw [List.getElem?_map]
    cases hbj : base[j]? with
    | none =>
      rw [List.getElem?_eq_none_iff] at hbj
      exact List.getElem?_eq_none_iff.2 (by omega)
    | some p =>
      have hj : j < vals.length := by rw [hlen]; exact (List.getElem?_eq_some_iff.1 hbj).1
      have hvj := List.getElem?_eq_getElem hj
      obtain ⟨_, _, hseg, _, hlast⟩ := hval j p _ hbj hvj
      rw [hvj, Option.map_some]
      congr 1
      obtain ⟨q, hq, hk, hh⟩ := over p (List.mem_of_getElem? hbj)
      rw [← hh]
      obtain ⟨m, hm⟩ := List.getElem?_of_mem hq
      by_cases hend : m + 1 < data.length
      · have hn := List.getElem?_eq_getElem hend
        have hlt : q i < (data[m + 1]) i := by
          have hm' := (List.getElem?_eq_some_iff.1 hm)
          have := List.pairwise_iff_getElem.1 inc m (m + 1) hm'.1 hend (by omega)
          rwa [hm'.2] at this
        rw [hseg m q _ hm hn hk.le (by rw [← hk]; exact hlt.le), ← hk]
        simp
      · refine hlast q ?_ hk.le
        rw [List.getLast?_eq_getElem?]
        have := (List.getElem?_eq_some_iff.1 hm).1
        rwa [show data.length - 1 = m by omega]

/-- Same mesh, same outcome. -/
theorem add_amounts {τ ω : Type _} {o : InterpOracle ℝ} (ho : Reproduces o) (s : Stack ℝ τ ω) (hb : s.mesh.points ≠ [])
    {arg : AddArg ℝ} {x : Profile} (g : Amounts s.axis s.mesh.points arg x) (ex : Option String) (opts : ω) (p : ℤ) (t : ℝ) :
    s.add o arg ex opts p t = s.add o (profileArg x) ex opts p t := by
  have key : ∀ data h, Gives s.axis s.mesh.points data h →
      newMesh o s (.dataset data) ex = newMesh o s (profileArg (.height h)) ex := by
    intro data h g
    simp only [newMesh, profileArg, interpolate_gives ho hb g, assignCoord, List.length_map, if_true]
  have : newMesh o s arg ex = newMesh o s (profileArg x) ex := by
    cases g with
    | height f => rfl
    | thick a => rfl
    | dataset g => exact key _ _ g
    | array g => exact key _ _ g
  simp only [Stack.add, this]

theorem add_keeps {τ ω : Type _} {o : InterpOracle ℝ} {s s' : Stack ℝ τ ω} {arg : AddArg ℝ} {ex : Option String} {opts : ω}
    {p : ℤ} {t : ℝ} (h : s.add o arg ex opts p t = .ok s') : s'.mesh = s.mesh ∧ s'.axis = s.axis := by
  simp only [Stack.add] at h
  split at h
  · cases h
  · obtain rfl := Except.ok.inj h
    exact ⟨rfl, rfl⟩

/-- **C137 (partial).** A surface given by points, as a dataset or an array, that has a point over every node of the base is
stacked as it is given: every sequence of `add` has the same outcome, whatever the options and the extrapolation, as the one
in which each such argument is replaced by the function with the given heights.  So all that is proved about stacks of
functions (C27, C124, C126, C131, C135, C136) holds for it.
Missing: lines given from right to left (`C67_reversed_data_refuted`), lines that are neither along x nor along y nor along z
(`C137_oblique_refuted`). -/
theorem C137_given_surfaces_partial {τ ω : Type _} {o : InterpOracle ℝ} (ho : Reproduces o) {mesh : Surf ℝ τ}
    (hb : mesh.points ≠ []) (axis : Fin 3) (bottomUp : Bool) {as : List (AddArg ℝ × Rest ℝ ω)}
    {bs : List (Profile × Rest ℝ ω)}
    (h : List.Forall₂ (fun a b => Amounts axis mesh.points a.1 b.1 ∧ a.2 = b.2) as bs) :
    (Stack.new mesh axis bottomUp).run o (as.map addCall) =
      (Stack.new mesh axis bottomUp).run o ((profileAdds bs).map addCall) := by
  have main : ∀ as bs, List.Forall₂ (fun (a : AddArg ℝ × Rest ℝ ω) (b : Profile × Rest ℝ ω) =>
      Amounts axis mesh.points a.1 b.1 ∧ a.2 = b.2) as bs → ∀ s : Stack ℝ τ ω, s.mesh = mesh → s.axis = axis →
      s.run o (as.map addCall) = s.run o ((profileAdds bs).map addCall) := by
    intro as bs h
    induction h with
    | nil => intro s _ _; rfl
    | @cons a b as bs hab _ ih =>
      intro s h1 h2
      obtain ⟨ha, hr⟩ := hab
      rw [← h1, ← h2] at ha
      simp only [profileAdds, List.map_cons, Stack.run, Stack.call, addCall]
      rw [add_amounts ho s (by rw [h1]; exact hb) ha, hr]
      cases hc : s.add o (profileArg b.1) b.2.extrapolation b.2.opts b.2.priority b.2.thickness with
      | error e => rfl
      | ok s' =>
        obtain ⟨k1, k2⟩ := add_keeps hc
        exact ih s' (k1.trans h1) (k2.trans h2)
  exact main as bs h _ rfl rfl

open Classical in
/-- An interpolator as assumed. -/
noncomputable def tableInterp : InterpOracle ℝ where
  linear idx data := .ok fun p =>
    (data.find? fun q => decide (∀ k ∈ idx, q k = p k)).map fun q =>
      q (((List.finRange 3).find? fun k => k ∉ idx).getD 0)
  nearest _ _ _ := 0

open Classical in
theorem tableInterp_ok : Reproduces tableInterp := by
  refine ⟨fun _ _ _ _ _ _ _ _ => ⟨_, rfl⟩, ?_⟩
  intro axis i j data f hij hi hj hf one q hq p h1 h2
  obtain rfl := Except.ok.inj hf
  have hax : ((List.finRange 3).find? fun k => decide (k ∉ [i, j])).getD 0 = axis := by
    clear hf one h1 h2; revert axis i j; decide
  have hall : ∀ k, k ≠ axis → k = i ∨ k = j := by
    clear hax hf one h1 h2; revert axis i j; decide
  simp only [hax]
  cases hfind : data.find? fun q => decide (∀ k ∈ [i, j], q k = p k) with
  | none =>
    have := List.find?_eq_none.1 hfind q hq
    simp [h1, h2] at this
  | some q' =>
    have hp := List.find?_some hfind
    simp only [List.mem_cons, List.not_mem_nil, or_false, forall_eq_or_imp, forall_eq, decide_eq_true_eq] at hp
    rw [Option.map_some]
    congr 1
    refine one q' (List.mem_of_find?_eq_some hfind) q hq ?_
    intro k hk
    rcases hall k hk with rfl | rfl
    · rw [hp.1, h1]
    · rw [hp.2, h2]

/-- Non-vacuous: a square seen from above, raised at one corner. -/
example : Gives 2 (squareXY ℝ).points [![2, 1, 7], ![0, 0, 0], ![1, 0, 0], ![2, 0, 0], ![0, 1, 0], ![1, 1, 0]]
    (fun p => if p 0 = 2 ∧ p 1 = 1 then 7 else 0) := by
  refine .surface 0 1 (by decide) (by decide) (by decide) ⟨![0, 0, 0], by simp, ![1, 0, 0], by simp, ![0, 1, 0], by simp, ?_⟩ ?_ ?_
  · norm_num
  · intro q hq q' hq' h
    have h0 := h 0 (by decide)
    have h1 := h 1 (by decide)
    simp only [List.mem_cons, List.not_mem_nil, or_false] at hq hq'
    rcases hq with rfl | rfl | rfl | rfl | rfl | rfl <;> rcases hq' with rfl | rfl | rfl | rfl | rfl | rfl <;>
      simp at h0 h1 ⊢
  · intro p hp
    simp only [squareXY, List.mem_cons, List.not_mem_nil, or_false] at hp
    have e : ∀ (q p : V3 ℝ), q 0 = p 0 → q 1 = p 1 → ∀ k, k ≠ (2 : Fin 3) → q k = p k := by
      intro q p h0 h1 k hk
      fin_cases k
      · exact h0
      · exact h1
      · exact absurd rfl hk
    rcases hp with rfl | rfl | rfl | rfl | rfl | rfl
    · exact ⟨![0, 0, 0], by simp, e _ _ rfl rfl, by simp⟩
    · exact ⟨![1, 0, 0], by simp, e _ _ rfl rfl, by simp⟩
    · exact ⟨![2, 0, 0], by simp, e _ _ rfl rfl, by simp⟩
    · exact ⟨![0, 1, 0], by simp, e _ _ rfl rfl, by simp⟩
    · exact ⟨![1, 1, 0], by simp, e _ _ rfl rfl, by simp⟩
    · exact ⟨![2, 1, 7], by simp, e _ _ rfl rfl, by simp⟩

/-- Non-vacuous: a broken line over the nodes of a line along x. -/
example : Gives 2 (lineX ℝ).points [![0, 0, 3], ![1, 0, 5], ![2, 0, 1]] (fun p => if p 0 = 0 then 3 else if p 0 = 1 then 5 else 1) := by
  refine .line 0 ⟨by decide, ⟨![0, 0, 3], by simp, ![1, 0, 5], by simp, by simp⟩, ?_⟩ ?_ ?_
  · intro k hk hk' p hp q hq
    have : k = 1 := by revert k; decide
    subst this
    simp only [List.mem_cons, List.not_mem_nil, or_false] at hp hq
    rcases hp with rfl | rfl | rfl <;> rcases hq with rfl | rfl | rfl <;> rfl
  · simp [Increasing]
  · intro p hp
    simp only [lineX, List.mem_cons, List.not_mem_nil, or_false] at hp
    rcases hp with rfl | rfl | rfl
    · exact ⟨![0, 0, 3], by simp, by simp⟩
    · exact ⟨![1, 0, 5], by simp, by simp⟩
    · exact ⟨![2, 0, 1], by simp, by simp⟩

/-- **C137 (refuted).** A line that is given at the very points of the base line is not stacked if, seen along the stacking
axis, it runs obliquely: the two other coordinates vary, so the points are handed to the interpolator for surfaces, which
fails on points that are all on one line (`hq`, Qhull). -/
theorem C137_oblique_refuted {τ ω : Type _} {o : InterpOracle ℝ} {i j axis : Fin 3} (hij : i < j) (hi : i ≠ axis)
    (hj : j ≠ axis) (hq : ∀ data, ¬ Spreads i j data → ∃ e, o.linear [i, j] data = .error e) {mesh : Surf ℝ τ}
    {data : List (V3 ℝ)} (h1 : ∃ p ∈ data, ∃ q ∈ data, p i ≠ q i) (h2 : ∃ p ∈ data, ∃ q ∈ data, p j ≠ q j)
    (hline : ¬ Spreads i j data) (bottomUp : Bool) (ex : Option String) (opts : ω) (p : ℤ) (t : ℝ) :
    (∃ e, (Stack.new mesh axis bottomUp).add o (.dataset data) ex opts p t = .error e) ∧
    ∃ e, (Stack.new mesh axis bottomUp).add o (.array2 3 data) ex opts p t = .error e := by
  obtain ⟨e, he⟩ := hq data hline
  have key : interpolate o axis mesh.points data ex = .error e := by
    simp only [interpolate, idx_surface hij hi hj ((varies_iff _ _).2 h1) ((varies_iff _ _).2 h2)]
    rw [if_pos (by simp)]
    simp only [he]
  constructor
  · exact ⟨e, by simp only [Stack.add, newMesh, Stack.new, key]⟩
  · exact ⟨e, by simp only [Stack.add, newMesh, Stack.new, key]; rfl⟩

/-- Non-vacuous: the diagonal of a square, at the height of the base line. -/
example : (∃ p ∈ ([![0, 0, 1], ![1, 1, 1], ![2, 2, 1]] : List (V3 ℝ)), ∃ q ∈ ([![0, 0, 1], ![1, 1, 1], ![2, 2, 1]] : List (V3 ℝ)), p 0 ≠ q 0) ∧
    (∃ p ∈ ([![0, 0, 1], ![1, 1, 1], ![2, 2, 1]] : List (V3 ℝ)), ∃ q ∈ ([![0, 0, 1], ![1, 1, 1], ![2, 2, 1]] : List (V3 ℝ)), p 1 ≠ q 1) ∧
    ¬ Spreads 0 1 [![0, 0, 1], ![1, 1, 1], ![2, 2, 1]] := by
  refine ⟨⟨![0, 0, 1], by simp, ![1, 1, 1], by simp, by simp⟩, ⟨![0, 0, 1], by simp, ![1, 1, 1], by simp, by simp⟩, ?_⟩
  have e : ∀ p ∈ ([![0, 0, 1], ![1, 1, 1], ![2, 2, 1]] : List (V3 ℝ)), p 0 = p 1 := by simp
  rintro ⟨a, ha, b, hb, c, hc, hne⟩
  exact hne (by rw [e a ha, e b hb, e c hc])

/-! ## the terrain of the examples -/

/-- The calls of the terrain as profiles. -/
def terrainProfiles (h : V3 ℝ → ℝ) : List (Profile × Rest ℝ (Opts (Resolution ℝ × Option String))) :=
  [(.thick 0, ⟨none, ⟨(.none, none), .none⟩, 0, 0⟩), (.height h, ⟨none, ⟨(.int 10, some "log_r"), .none⟩, 0, 0⟩)]

/-- The ten layers of the terrain. -/
theorem perc_log_r : ∃ p : List ℝ, resolutionToPerc (.int 10) (some "log_r") = .ok p ∧ fromZeroToOne p ∧ p.length = 11 ∧
    ∀ s : ℕ, s ≤ 10 → p[s]? = some (Real.logb 10 (1 + 9 * (s / 10))) := by
  refine ⟨_, resolutionToPerc_int (.inr (.inr rfl)) 10, ?_, by simp, ?_⟩
  · obtain ⟨p, h1, h2, _⟩ := C11_integer_resolution 10 (some "log_r") (.inr (.inr rfl))
    rw [resolutionToPerc_int (.inr (.inr rfl)) 10] at h1
    obtain rfl := Except.ok.inj h1
    refine ⟨by simp, h2.first, ?_⟩
    rw [h2.size]; exact h2.last
  · intro s hs
    have : s < 11 := by omega
    rw [List.getElem?_map, show (max 1 (10 : ℤ)).toNat + 1 = 11 from rfl, List.getElem?_range this, Option.map_some]
    simp [posOf, show methodName (some "log_r") = "log_r" from rfl]

/-- **C137 (terrain), partial.** The topographic terrain of the examples, for any structured surface in place of the
downloaded one whose points are not all on one line and lie over different places, without groups: the mesh is made; it has
ten layers; node `(i, j, k)` lies over node `(i, j)` of the surface at height `(1 - t) b + t h`, where `h` is the height of
that node raised by its scalar, `b` the lower of 0 and `h`, and `t = log10 (1 + 9 k / 10)`; the cells carry their layer, their
column and the group "default".  With heights above 0, the bottom is flat and the top is the terrain. -/
theorem C137_terrain_partial (volume : Arr3 (V3 ℝ) → List ℝ) (hvol : ∀ x, (volume x).length = count (cells x.d))
    {o : InterpOracle ℝ} (ho : Reproduces o) {n m : ℕ} (hn : 2 ≤ n) (hm : 2 ≤ m) {terrain : Surf ℝ GridTopo}
    (hmesh : StackGrid ![n, m, 1] terrain) (hg : Dict.get? terrain.topo.cellData "CellGroup" = none) {scalars : List ℝ}
    (hs : scalars.length = terrain.points.length) (hspread : Spreads 0 1 terrain.points)
    (hone : terrain.points.Pairwise fun p q => p 0 ≠ q 0 ∨ p 1 ≠ q 1) :
    ∃ M table layers columns groups, loadTopographicTerrain volume o terrain scalars = .ok (M, table) ∧
      M.nodes.d = ![n, m, 11] ∧
      (∀ (i j k : ℕ) p v, i < n → j < m → k ≤ 10 → terrain.points[i + n * j]? = some p → scalars[i + n * j]? = some v →
        ∃ t, t = Real.logb 10 (1 + 9 * (k / 10)) ∧
        M.points[i + n * (j + m * k)]? = some ![p 0, p 1, (1 - t) * min 0 (p 2 + v) + t * (p 2 + v)]) ∧
      Dict.get? M.cellData "LayerId" = some layers ∧ Dict.get? M.cellData "ColumnId" = some columns ∧
      Dict.get? M.cellData "CellGroup" = some groups ∧ DenseTable table ∧
      ∀ i j k : ℕ, i + 1 < n → j + 1 < m → k < 10 →
        layers.vals[i + (n - 1) * (j + (m - 1) * k)]? = some (k : ℤ) ∧
        columns.vals[i + (n - 1) * (j + (m - 1) * k)]? = some ((i + (n - 1) * j : ℕ) : ℤ) ∧
        CellNamed table groups.vals (i + (n - 1) * (j + (m - 1) * k)) "default" := by
  -- the height over each point
  have uniq : ∀ (x y : ℕ) p q, terrain.points[x]? = some p → terrain.points[y]? = some q → p 0 = q 0 → p 1 = q 1 → x = y := by
    intro x y p q hx hy h0 h1
    have hx' := List.getElem?_eq_some_iff.1 hx
    have hy' := List.getElem?_eq_some_iff.1 hy
    rcases lt_trichotomy x y with hlt | rfl | hlt
    · have := List.pairwise_iff_getElem.1 hone x y hx'.1 hy'.1 hlt
      rw [hx'.2, hy'.2] at this
      exact absurd this (by simp [h0, h1])
    · rfl
    · have := List.pairwise_iff_getElem.1 hone y x hy'.1 hx'.1 hlt
      rw [hx'.2, hy'.2] at this
      exact absurd this (by simp [h0, h1])
  obtain ⟨h, hh⟩ : ∃ h : V3 ℝ → ℝ, ∀ (x : ℕ) p v, terrain.points[x]? = some p → scalars[x]? = some v → h p = p 2 + v := by
    classical
    refine ⟨fun p => if H : ∃ x : ℕ, terrain.points[x]? = some p then p 2 + scalars.getD H.choose 0 else 0, ?_⟩
    intro x p v hx hv
    have H : ∃ x : ℕ, terrain.points[x]? = some p := ⟨x, hx⟩
    simp only [dif_pos H]
    rw [← uniq x _ p p hx H.choose_spec rfl rfl]
    simp [List.getD_eq_getElem?_getD, hv]
  have hwarp : ∀ q ∈ warpByScalar terrain.points scalars, ∃ (x : ℕ) (p : V3 ℝ) (v : ℝ), terrain.points[x]? = some p ∧
      scalars[x]? = some v ∧ q = p + ![0, 0, v] := by
    intro q hq
    obtain ⟨x, hx⟩ := List.getElem?_of_mem hq
    simp only [warpByScalar, List.getElem?_zipWith'] at hx
    cases hp : terrain.points[x]? with
    | none => simp [hp] at hx
    | some p =>
      cases hv : scalars[x]? with
      | none => simp [hp, hv] at hx
      | some v => exact ⟨x, p, v, hp, hv, by simpa [hp, hv] using hx.symm⟩
  have hwarp' : ∀ p ∈ terrain.points, ∃ q ∈ warpByScalar terrain.points scalars, q 0 = p 0 ∧ q 1 = p 1 ∧ q 2 = h p := by
    intro p hp
    obtain ⟨x, hx⟩ := List.getElem?_of_mem hp
    have hl : x < scalars.length := by rw [hs]; exact (List.getElem?_eq_some_iff.1 hx).1
    have hv := List.getElem?_eq_getElem hl
    refine ⟨p + ![0, 0, scalars[x]], List.mem_of_getElem? (i := x) ?_, by simp, by simp, by simp [hh x p _ hx hv]⟩
    simp [warpByScalar, List.getElem?_zipWith', hx, hv]
  have hgives : Gives 2 terrain.points (warpByScalar terrain.points scalars) h := by
    refine .surface 0 1 (by decide) (by decide) (by decide) ?_ ?_ ?_
    · obtain ⟨a, ha, b, hb, c, hc, hne⟩ := hspread
      obtain ⟨a', ha', a0, a1, _⟩ := hwarp' a ha
      obtain ⟨b', hb', b0, b1, _⟩ := hwarp' b hb
      obtain ⟨c', hc', c0, c1, _⟩ := hwarp' c hc
      exact ⟨a', ha', b', hb', c', hc', by rw [a0, a1, b0, b1, c0, c1]; exact hne⟩
    · intro q hq q' hq' he
      obtain ⟨x, p, v, k1, k2, rfl⟩ := hwarp q hq
      obtain ⟨x', p', v', k1', k2', rfl⟩ := hwarp q' hq'
      have e0 := he 0 (by decide)
      have e1 := he 1 (by decide)
      simp only [Pi.add_apply, Matrix.cons_val_zero, Matrix.cons_val_one, add_zero] at e0 e1
      obtain rfl := uniq x x' p p' k1 k1' e0 e1
      rw [k1] at k1'; rw [k2] at k2'
      obtain rfl := Option.some.inj k1'
      obtain rfl := Option.some.inj k2'
      rfl
    · intro p hp
      obtain ⟨q, hq, q0, q1, q2⟩ := hwarp' p hp
      refine ⟨q, hq, ?_, q2⟩
      intro k hk
      fin_cases k
      · exact q0
      · exact q1
      · exact absurd rfl hk
  have hflat : FlatAlong ![n, m, 1] 2 := by
    refine ⟨rfl, ?_⟩
    intro ax hax
    fin_cases ax
    · exact hn
    · exact hm
    · exact absurd rfl hax
  have hne : terrain.points ≠ [] := by
    obtain ⟨a, ha, _⟩ := hspread
    exact List.ne_nil_of_mem ha
  obtain ⟨ps, r1, r2, r3, r4⟩ := perc_log_r
  obtain ⟨s, hrun, g1, g2⟩ := C124_stack3d_partial volume hvol [] "default" o ![n, m, 1] terrain hmesh 2 hflat
    (terrainProfiles h) (by simp [terrainProfiles]) (by
      intro a ha
      simp only [terrainProfiles, List.tail_cons, List.mem_cons, List.not_mem_nil, or_false] at ha
      subst ha
      exact ⟨ps, r1, r2⟩)
  have hcalls : (Stack.new terrain 2 true).run o (terrainCalls terrain scalars) = .ok s := by
    rw [← hrun]
    refine C137_given_surfaces_partial (as := ([(.scalar 0, ⟨none, ⟨(.none, none), .none⟩, 0, 0⟩),
      (.dataset (warpByScalar terrain.points scalars), ⟨none, ⟨(.int 10, some "log_r"), .none⟩, 0, 0⟩)] :
      List (AddArg ℝ × Rest ℝ (Opts (Resolution ℝ × Option String))))) ho hne 2 true ?_
    exact .cons ⟨.thick 0, rfl⟩ (.cons ⟨.dataset hgives, rfl⟩ .nil)
  obtain ⟨⟨⟨M, table⟩, s'⟩, hR⟩ := g1 (by
    intro a ha
    simp only [terrainProfiles, List.tail_cons, List.mem_cons, List.not_mem_nil, or_false] at ha
    subst ha
    intro kv hkv
    simp [entries] at hkv)
  obtain ⟨⟨surfs, c1, c2, subs, names, d1, d2, d3, d4⟩, _⟩ := g2 M table s' hR
  obtain ⟨ts, name, e1, e2, e3, e4⟩ := d3 0 _ rfl
  obtain rfl : ps = ts := Except.ok.inj (r1.symm.trans e1)
  have hsubs : subs = [ps] := by
    match subs, d1, e2 with
    | [u], _, e2 => rw [Option.some.inj e2]
  subst hsubs
  have hshape : M.nodes.d = ![n, m, 11] := by
    rw [d4.shape]
    funext ax
    fin_cases ax <;> simp [r3]
  have hdef : ∀ c, c < count (cells ![n, m, 1]) → name c = "default" := by
    intro c hc
    obtain ⟨sels, l1, l2⟩ := e4
    simp only [entries] at l1
    cases l1
    rw [l2 c hc]
    simp [lastSelecting, baseLabel, groupCodes, hg]
  obtain ⟨layers, columns, items, groups, f1, f2, _, f4, _, _, f5⟩ := d4.data
  refine ⟨M, table, layers, columns, groups, ?_, hshape, ?_, f1, f2, f4, d4.dense, ?_⟩
  · have e : stack3DNew (ω := Opts (Resolution ℝ × Option String)) terrain 2 true = .ok (Stack.new terrain 2 true) := by
      refine (C100_stack3d terrain ?_ 2 true).1 2 rfl (by rw [hmesh.dims]; exact hflat)
      rw [hmesh.dims]
      intro ax
      fin_cases ax
      · exact (by omega : 1 ≤ n)
      · exact (by omega : 1 ≤ m)
      · exact le_rfl
    simp only [loadTopographicTerrain, e, hcalls, hR]
    rfl
  · intro i j k p v hi hj hk hp hv
    refine ⟨_, rfl, ?_⟩
    have hin : InShape ![n, m, 1] ![i, j, 0] := by
      intro ax
      fin_cases ax
      · exact hi
      · exact hj
      · exact Nat.one_pos
    have hid : vtkId ![n, m, 1] ![i, j, 0] = i + n * j := by simp [vtkId]
    have l2 : surfs.length = 2 := by rw [c1]; rfl
    have g0 : surfs[(0 : ℕ)]? = some (surfs[0]'(by omega)) := List.getElem?_eq_getElem (by omega)
    have g1 : surfs[(0 : ℕ) + 1]? = some (surfs[1]'(by omega)) := List.getElem?_eq_getElem (by omega)
    have := d4.nodes 0 _ _ ps g0 g1 rfl ![i, j, 0] k _ _ _ hin (r4 k hk)
      ((c2 0 _ g0).2 _ p (by rw [hid]; exact hp)) ((c2 1 _ g1).2 _ p (by rw [hid]; exact hp))
    rw [between_update, hshape] at this
    have eid : vtkId ![n, m, 11] (Function.update ![i, j, 0] 2 (layersIn [ps] 0 + k)) = i + n * (j + m * k) := by
      simp [vtkId, layersIn]; try ring
    rw [eid] at this
    rw [this]
    congr 1
    have b0 : cutHeight ((terrainProfiles h).map fun a => (a.1, a.2.thickness, a.2.priority)) 0 p = min 0 (p 2 + v) := by
      simp [cutHeight, pushedHeight, terrainProfiles, profileHeight, hh _ p v hp hv]
    have b1 : cutHeight ((terrainProfiles h).map fun a => (a.1, a.2.thickness, a.2.priority)) 1 p = p 2 + v := by
      simp [cutHeight, pushedHeight, terrainProfiles, profileHeight, hh _ p v hp hv]
    rw [b0, b1]
    funext ax
    fin_cases ax <;> simp
  · intro i j k hi hj hk
    have ec : cells ![n, m, 1] = ![n - 1, m - 1, 1] := by
      funext ax
      fin_cases ax
      · exact if_neg (by omega : ¬ n ≤ 1)
      · exact if_neg (by omega : ¬ m ≤ 1)
      · rfl
    have ec' : cells ![n, m, 11] = ![n - 1, m - 1, 10] := by
      funext ax
      fin_cases ax
      · exact if_neg (by omega : ¬ n ≤ 1)
      · exact if_neg (by omega : ¬ m ≤ 1)
      · rfl
    have hin : InShape (cells ![n, m, 1]) ![i, j, 0] := by
      rw [ec]
      intro ax
      fin_cases ax
      · exact (by omega : i < n - 1)
      · exact (by omega : j < m - 1)
      · exact Nat.one_pos
    have hlm : LayerMajor ![n, m, 1] 2 ps := .inl rfl
    obtain ⟨q1, _, q3⟩ := f5 0 ps name rfl e3 ![i, j, 0] k hin (by rw [r3]; exact hk)
    obtain ⟨q1, q2⟩ := q1 hlm
    have eid : vtkId (cells M.nodes.d) (Function.update ![i, j, 0] 2 (layersIn [ps] 0 + k)) =
        i + (n - 1) * (j + (m - 1) * k) := by
      rw [hshape, ec']
      simp [vtkId, layersIn]; try ring
    have eid' : vtkId (cells ![n, m, 1]) ![i, j, 0] = i + (n - 1) * j := by
      rw [ec]
      simp [vtkId]
    rw [eid] at q1 q2 q3
    rw [eid'] at q2
    refine ⟨by simpa [layersIn] using q1, q2, ?_⟩
    rw [hdef _ (vtkId_lt hin)] at q3
    exact q3

/-- Non-vacuous: a terrain of two by two nodes. -/
example : StackGrid ![2, 2, 1] (⟨[![0, 0, 0], ![1, 0, 0], ![0, 1, 0], ![1, 1, 0]], ![2, 2, 1], [("scalar1of1", ⟨false, [5, 6, 7, 8]⟩)], [], none⟩ :
      Surf ℝ GridTopo) ∧
    Spreads 0 1 [![0, 0, 0], ![1, 0, 0], ![0, 1, 0], ![1, 1, 0]] ∧
    ([![0, 0, 0], ![1, 0, 0], ![0, 1, 0], ![1, 1, 0]] : List (V3 ℝ)).Pairwise fun p q => p 0 ≠ q 0 ∨ p 1 ≠ q 1 := by
  refine ⟨⟨rfl, rfl, ⟨by simp [count], by simp⟩, ⟨by simp, by simp⟩, by simp⟩,
    ⟨![0, 0, 0], by simp, ![1, 0, 0], by simp, ![0, 1, 0], by simp, by norm_num⟩, by simp⟩

end Gridder
