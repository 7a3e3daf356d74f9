import Verif.Props.StackExact
import Verif.Props.StackScalarU

/-!
# C124: stacks of profiles
-/

namespace Gridder
open Spec

namespace Spec

/-- An argument of `add` that gives heights: a function of the position (evaluated at the points of the base mesh) or a
number (a height for the first surface, a thickness for the others). -/
inductive Profile
  | height (f : (Fin 3 → ℝ) → ℝ)
  | thick (a : ℝ)

/-- The height over the base point `p` of surface `i` as it is added. -/
def profileHeight (bottomUp : Bool) (l : List Profile) : ℕ → (Fin 3 → ℝ) → ℝ
  | 0, p =>
    (match l[(0 : ℕ)]? with
    | some (.height f) => f p
    | some (.thick a) => a
    | none => 0)
  | i + 1, p => match l[i + 1]? with
    | some (.height f) => f p
    | some (.thick a) => if bottomUp then profileHeight bottomUp l i p + |a| else profileHeight bottomUp l i p - |a|
    | none => 0

/-- The height over the base point `p` to which surface `i` of a bottom-up stack is pushed up by those before it: with a lower
priority than the surface before it, it does not come closer to that one than its minimum thickness.  The entries of the list
are profile, minimum thickness and priority. -/
noncomputable def pushedHeight (l : List (Profile × ℝ × ℤ)) : ℕ → (Fin 3 → ℝ) → ℝ
  | 0, p => profileHeight true (l.map Prod.fst) 0 p
  | i + 1, p => match l[i]?, l[i + 1]? with
    | some x, some y =>
      if y.2.2 < x.2.2 then max (profileHeight true (l.map Prod.fst) (i + 1) p) (pushedHeight l i p + y.2.1)
      else profileHeight true (l.map Prod.fst) (i + 1) p
    | _, _ => profileHeight true (l.map Prod.fst) (i + 1) p

/-- The height over the base point `p` of surface `i` of the mesh: pushed up by the surfaces before it, and then, if the next
surface has no lower priority, not above the height at which that one was added less its minimum thickness. -/
noncomputable def cutHeight (l : List (Profile × ℝ × ℤ)) (i : ℕ) (p : Fin 3 → ℝ) : ℝ :=
  match l[i]?, l[i + 1]? with
  | some x, some y =>
    if y.2.2 < x.2.2 then pushedHeight l i p
    else min (pushedHeight l i p) (profileHeight true (l.map Prod.fst) (i + 1) p - y.2.1)
  | _, _ => pushedHeight l i p

/-- Surface `k` is the base with its points moved along the axis to the heights `h k`. -/
def AtHeights (axis : Fin 3) (base : List (Fin 3 → ℝ)) (h : ℕ → (Fin 3 → ℝ) → ℝ) (surfs : List (List (Fin 3 → ℝ))) : Prop :=
  ∀ (k : ℕ) pts, surfs[k]? = some pts → pts.length = base.length ∧
    ∀ (j : ℕ) p, base[j]? = some p → pts[j]? = some (Function.update p axis (h k p))

end Spec

/-- The argument of `add` for a profile: a function is called with the coordinates of the points of the base mesh and works
on them one by one. -/
def profileArg : Profile → AddArg ℝ
  | .height f => .callable fun pts => .ok (.inr (pts.map f))
  | .thick a => .scalar a

/-- The calls of a stack of profiles. -/
def profileAdds {ω : Type _} (l : List (Profile × Rest ℝ ω)) : List (AddArg ℝ × Rest ℝ ω) :=
  l.map fun a => (profileArg a.1, a.2)

theorem setCoord_map (axis : Fin 3) (pts : List (V3 ℝ)) (f : V3 ℝ → ℝ) :
    setCoord axis pts (pts.map f) = pts.map fun p => Function.update p axis (f p) := by
  simp only [setCoord]
  induction pts with
  | nil => rfl
  | cons p pts ih => simp only [List.map_cons, List.zipWith_cons_cons, ih]

theorem profile_newMesh {τ ω : Type _} (o : InterpOracle ℝ) (s : Stack ℝ τ ω) (L : List Profile) (x : Profile)
    (ex : Option String) (hx : L[s.items.length]? = some x)
    (hitems : ∀ (i : ℕ) it, s.items[i]? = some it → it.mesh =
      ⟨s.mesh.points.map fun p => Function.update p s.axis (profileHeight s.bottomUp L i p), s.mesh.topo⟩) :
    newMesh o s (profileArg x) ex = .ok
      ⟨s.mesh.points.map fun p => Function.update p s.axis (profileHeight s.bottomUp L s.items.length p), s.mesh.topo⟩ := by
  cases x with
  | height f =>
    have e : ∀ p, profileHeight s.bottomUp L s.items.length p = f p := by
      intro p
      cases hn : s.items.length with
      | zero => rw [hn] at hx; simp only [profileHeight, hx]
      | succ n => rw [hn] at hx; simp only [profileHeight, hx]
    simp only [newMesh, profileArg, assignCoord, List.length_map, if_true, setCoord_map, e]
  | thick a =>
    simp only [newMesh, profileArg]
    cases hl : s.items.getLast? with
    | none =>
      have hn : s.items.length = 0 := by
        rw [List.getLast?_eq_none_iff] at hl; rw [hl]; rfl
      rw [hn] at hx
      simp only [hn, profileHeight, hx]
    | some it =>
      rw [List.getLast?_eq_getElem?] at hl
      obtain ⟨n, hn⟩ : ∃ n, s.items.length = n + 1 := by
        cases h : s.items.length with
        | zero => rw [List.length_eq_zero_iff.1 h] at hl; simp at hl
        | succ n => exact ⟨n, rfl⟩
      rw [hn, Nat.add_sub_cancel] at hl
      rw [hn] at hx
      simp only [hn, profileHeight, hx, hitems n it hl, List.map_map, Except.ok.injEq, Surf.mk.injEq, and_true]
      apply List.map_congr_left
      intro p _
      simp only [Function.comp, Function.update_self, Function.update_idem]
      congr 1
      cases s.bottomUp <;> simp [sub_eq_add_neg]

theorem run_profiles {τ ω : Type _} (o : InterpOracle ℝ) (L : List Profile) :
    ∀ (rest : List (Profile × Rest ℝ ω)) (done : List Profile) (s : Stack ℝ τ ω),
      L = done ++ rest.map Prod.fst → s.items.length = done.length →
      (∀ (i : ℕ) it, s.items[i]? = some it → it.mesh =
        ⟨s.mesh.points.map fun p => Function.update p s.axis (profileHeight s.bottomUp L i p), s.mesh.topo⟩) →
      ∃ s', s.run o ((profileAdds rest).map addCall) = .ok s' ∧ s'.items.length = L.length ∧
        ∀ (i : ℕ) it, s'.items[i]? = some it → it.mesh =
          ⟨s.mesh.points.map fun p => Function.update p s.axis (profileHeight s.bottomUp L i p), s.mesh.topo⟩ := by
  intro rest
  induction rest with
  | nil => intro done s hL hlen hs; exact ⟨s, rfl, by rw [hL, hlen]; simp, hs⟩
  | cons a rest ih =>
    intro done s hL hlen hs
    have hx : L[s.items.length]? = some a.1 := by rw [hlen, hL]; simp
    have hm := profile_newMesh o s L a.1 a.2.extrapolation hx hs
    simp only [profileAdds, List.map_cons, Stack.run, Stack.call, addCall, Stack.add, hm]
    refine ih (done ++ [a.1]) _ (by simp [hL]) (by simp [hlen]) ?_
    intro i it hi
    simp only at hi ⊢
    by_cases h : i < s.items.length
    · rw [List.getElem?_append_left h] at hi
      exact hs i it hi
    · rw [List.getElem?_append_right (by omega)] at hi
      have h0 : i - s.items.length = 0 := by
        by_contra hc
        rw [List.getElem?_eq_none (by simp; omega)] at hi; cases hi
      have h1 : i = s.items.length := by omega
      rw [h0] at hi
      simp only [List.getElem?_cons_zero, Option.some.injEq] at hi
      rw [← hi, h1]
      split_ifs <;> rfl

/-- With priorities that never decrease a surface is the lower of its profile and the next one less its minimum thickness. -/
theorem cutHeight_up {l : List (Profile × ℝ × ℤ)} (hprio : l.IsChain fun x y => x.2.2 ≤ y.2.2) (i : ℕ) (p : V3 ℝ) :
    cutHeight l i p = match l[i + 1]? with
      | some y => min (profileHeight true (l.map Prod.fst) i p) (profileHeight true (l.map Prod.fst) (i + 1) p - y.2.1)
      | none => profileHeight true (l.map Prod.fst) i p := by
  have hle : ∀ (i : ℕ) x y, l[i]? = some x → l[i + 1]? = some y → ¬ y.2.2 < x.2.2 := by
    intro i x y hx hy
    rw [List.isChain_iff_getElem] at hprio
    obtain ⟨la, rfl⟩ := List.getElem?_eq_some_iff.1 hx
    obtain ⟨lb, rfl⟩ := List.getElem?_eq_some_iff.1 hy
    exact not_lt.2 (hprio i lb)
  have hpush : ∀ i, pushedHeight l i p = profileHeight true (l.map Prod.fst) i p := by
    intro i
    cases i with
    | zero => rfl
    | succ i =>
      simp only [pushedHeight]
      split
      · rename_i x y hx hy
        rw [if_neg (hle i x y hx hy)]
      · rfl
  simp only [cutHeight, hpush]
  cases hy : l[i + 1]? with
  | none => cases l[i]? <;> rfl
  | some y =>
    cases hx : l[i]? with
    | none =>
      rw [List.getElem?_eq_none_iff] at hx
      have := (List.getElem?_eq_some_iff.1 hy).1
      omega
    | some x => simp only [if_neg (hle i x y hx hy)]

/-- Profiles that are in order, each at least its minimum thickness above the one before, stay where they are. -/
theorem cutHeight_ordered {l : List (Profile × ℝ × ℤ)} {p : V3 ℝ}
    (hord : ∀ (k : ℕ) a, l[k + 1]? = some a →
      profileHeight true (l.map Prod.fst) k p + a.2.1 ≤ profileHeight true (l.map Prod.fst) (k + 1) p) (i : ℕ) :
    cutHeight l i p = profileHeight true (l.map Prod.fst) i p := by
  have hpush : ∀ i, pushedHeight l i p = profileHeight true (l.map Prod.fst) i p := by
    intro i
    induction i with
    | zero => rfl
    | succ i ih =>
      simp only [pushedHeight]
      split
      · rename_i x y hx hy
        rw [ih, max_eq_left (hord i y hy), ite_self]
      · rfl
  simp only [cutHeight, hpush]
  split
  · rename_i x y hx hy
    rw [min_eq_left (by linarith [hord i y hy]), ite_self]
  · rfl

/-- All calls on a stack of profiles succeed, and the surfaces of any mesh generated bottom-up have the heights
`cutHeight`. -/
theorem profile_items {τ ρ : Type _} {o : InterpOracle ℝ} {mesh : Surf ℝ τ} {axis : Fin 3}
    {as : List (Profile × Rest ℝ (Opts ρ))} :
    ∃ s, (Stack.new mesh axis true).run o ((profileAdds as).map addCall) = .ok s ∧
      ∀ {M : Type} {build : List (Item ℝ τ (Opts ρ)) → Py M} {m : M} {s' : Stack ℝ τ (Opts ρ)},
        s.generate build = .ok (m, s') →
          AtHeights axis mesh.points (cutHeight (as.map fun a => (a.1, a.2.thickness, a.2.priority)))
            (s'.items.map fun it => it.mesh.points) := by
  obtain ⟨s, hs, hlen, hmesh⟩ := run_profiles o (as.map Prod.fst) as [] (Stack.new mesh axis true)
    (by simp) (by simp [Stack.new]) (by simp [Stack.new])
  refine ⟨s, hs, ?_⟩
  intro M build m s' hgen
  obtain ⟨_, e2, e3, e4, new, e5, e6, e7⟩ := run_adds _ _ s hs rfl (by simp [Stack.new])
  simp only [Stack.new, List.nil_append, List.length_nil, Nat.zero_add] at e2 e3 e5 e7 hmesh
  rw [List.length_map] at hlen
  have hget : ∀ (i : ℕ) it, s.items[i]? = some it → ∃ a, as[i]? = some a ∧ it.priority = a.2.priority ∧
      (i ≠ 0 → it.thickness = a.2.thickness) := by
    intro i it hi
    have hia : i < as.length := by rw [← hlen]; exact (List.getElem?_eq_some_iff.1 hi).1
    have ha := List.getElem?_eq_getElem hia
    have := e7 i it (profileArg as[i].1, as[i].2) (by rw [← e5]; exact hi) (by simp [profileAdds, ha])
    exact ⟨_, ha, this.1, fun h => (this.2 h).2⟩
  have htr : ∀ (i : ℕ) it, s.items[i]? = some it → it.transition = false :=
    fun i it hi => (e4 it (List.mem_of_getElem? hi)).2
  obtain ⟨a0, rest0, hi0, hcut, _⟩ := generate_inv hgen
  obtain ⟨hl, hsame⟩ := cutFrom_same hcut
  rw [← hi0] at hsame
  intro k pts hk
  rw [List.getElem?_map, Option.map_eq_some_iff] at hk
  obtain ⟨x', hx', rfl⟩ := hk
  have lk : k < s.items.length := by
    have := (List.getElem?_eq_some_iff.1 hx').1
    rw [hi0]; simp only [List.length_cons]; omega
  have hx := List.getElem?_eq_getElem lk
  obtain ⟨u, hu, sx⟩ := hsame k _ hx
  rw [hx'] at hu; cases hu
  have hxm := hmesh k _ hx
  have hsize : x'.mesh.points.length = mesh.points.length := by rw [sx.length, hxm]; simp
  refine ⟨hsize, ?_⟩
  intro j p hp
  set l := as.map fun a => (a.1, a.2.thickness, a.2.priority) with hldef
  have hmap : l.map Prod.fst = as.map Prod.fst := by rw [hldef, List.map_map]; rfl
  have hpt : ∀ (i : ℕ) it q, s.items[i]? = some it → it.mesh.points[j]? = some q →
      q = Function.update p axis (profileHeight true (l.map Prod.fst) i p) := by
    intro i it q hi hq
    rw [hmesh i it hi, hmap] at *
    simp only [List.getElem?_map, hp, Option.map_some, Option.some.injEq] at hq
    exact hq.symm
  have hlget : ∀ (i : ℕ) a, as[i]? = some a → l[i]? = some (a.1, a.2.thickness, a.2.priority) := by
    intro i a ha; rw [hldef, List.getElem?_map, ha]; rfl
  have hR : PushedUp s.axis j s.items (fun i => pushedHeight l i p) := by
    rw [e2]
    refine ⟨?_, ?_⟩
    · intro x q hx hq
      rw [hpt 0 x q hx hq, Function.update_self]; rfl
    · intro i x y q hx hy hq
      obtain ⟨a, ha, pa, _⟩ := hget i x hx
      obtain ⟨b, hb, pb, tb⟩ := hget (i + 1) y hy
      rw [hpt (i + 1) y q hy hq, Function.update_self]
      simp only [pushedHeight, hlget i a ha, hlget (i + 1) b hb, pa, pb, tb (by omega), htr (i + 1) y hy, true_and]
  have hj : j < x'.mesh.points.length := by rw [hsize]; exact (List.getElem?_eq_some_iff.1 hp).1
  have hp' := List.getElem?_eq_getElem hj
  obtain ⟨c1, c2⟩ := C27_heights build s s' m e3 hgen j _ hR k _ x' _ hx hx' hp'
  have hxp : s.items[k].mesh.points[j]? =
      some (Function.update p axis (profileHeight true (as.map Prod.fst) k p)) := by
    rw [hxm]; simp [hp]
  obtain ⟨a, ha, pa, _⟩ := hget k _ hx
  have hval : x'.mesh.points[j] axis = cutHeight l k p := by
    rw [e2] at c1 c2
    by_cases hlast : k + 1 < s.items.length
    · have hy := List.getElem?_eq_getElem hlast
      have hyp : s.items[k + 1].mesh.points[j]? =
          some (Function.update p axis (profileHeight true (l.map Prod.fst) (k + 1) p)) := by
        rw [hmesh (k + 1) _ hy, hmap]; simp [hp]
      obtain ⟨b, hb, pb, tb⟩ := hget (k + 1) _ hy
      rw [c2 _ _ hy (htr _ _ hy) hyp, Function.update_self]
      simp only [cutHeight, hlget k a ha, hlget (k + 1) b hb, pa, pb, tb (by omega)]
    · rw [c1 (fun y hy => absurd (List.getElem?_eq_some_iff.1 hy).1 hlast)]
      have hnone : l[k + 1]? = none := by rw [hldef, List.getElem?_eq_none_iff, List.length_map, ← hlen]; omega
      simp only [cutHeight, hlget k a ha, hnone]
  rw [hp']
  congr 1
  funext ax
  by_cases hax : ax = axis
  · subst hax
    rw [hval, Function.update_self]
  · rw [Function.update_of_ne hax]
    have h1 := sx.coords j _ _ hxp hp' ax (by rw [e2]; exact hax)
    rw [h1, Function.update_of_ne hax]

namespace Spec

/-- The grid of a stack of profiles: over a base point the node at position `t` of item `k` lies at the fraction `t` of the
way from height `h k` to height `h (k + 1)`. -/
def ProfileGrid (d : Fin 3 → ℕ) (axis : Fin 3) (base : List (Fin 3 → ℝ)) (h : ℕ → (Fin 3 → ℝ) → ℝ)
    (args : List (Resolution ℝ × Option String)) (M : SGrid ℝ ℤ) : Prop :=
  ∃ subs, subs.length = args.length ∧
    (∀ (k : ℕ) a, args[k]? = some a → ∃ ts, resolutionToPerc a.1 a.2 = .ok ts ∧ subs[k]? = some ts) ∧
    M.nodes.d = Function.update d axis (1 + (subs.map fun ts => ts.length - 1).sum) ∧
    ∀ (k : ℕ) ts, subs[k]? = some ts → ∀ i s t p, InShape d i → ts[s]? = some t → base[vtkId d i]? = some p →
      M.points[vtkId M.nodes.d (Function.update i axis (layersIn subs k + s))]? =
        some (Function.update p axis ((1 - t) * h k p + t * h (k + 1) p))

end Spec

theorem between_update (t u v : ℝ) (p : V3 ℝ) (axis : Fin 3) :
    between t (Function.update p axis u) (Function.update p axis v) = Function.update p axis ((1 - t) * u + t * v) := by
  funext ax
  by_cases h : ax = axis
  · subst h; simp [between]; try ring
  · simp [between, Function.update_of_ne h]; try ring

theorem profile_grid {src : List ℝ → (Fin 3 → ℕ) → ℕ → ℕ} {area : Arr3 (V3 ℝ) → List ℝ} {ghost : Dict String (DArr ℤ)} {ignore : List String}
    {dflt : String} {d : Fin 3 → ℕ} {axis : Fin 3} {codes : Option (List Int)} {tbl : Option (List (String × Int))}
    {key : String} {base : List (Fin 3 → ℝ)} {h : ℕ → (Fin 3 → ℝ) → ℝ}
    {args : List ((Resolution ℝ × Option String) × GroupArg)} {surfs : List (List (Fin 3 → ℝ))}
    {M : SGrid ℝ ℤ} {table : List (String × Int)} (hlen : surfs.length = args.length + 1)
    (hh : AtHeights axis base h surfs)
    (hm : StackedMeshBy src area ghost ignore dflt d axis codes tbl args key surfs M table) :
    ProfileGrid d axis base h (args.map Prod.fst) M := by
  obtain ⟨subs, names, h1, h2, h3, h4⟩ := hm
  refine ⟨subs, by rw [h1]; simp, ?_, h4.shape, ?_⟩
  · intro k a ha
    rw [List.getElem?_map, Option.map_eq_some_iff] at ha
    obtain ⟨x, hx, rfl⟩ := ha
    obtain ⟨ts, _, t1, t2, _⟩ := h3 k x hx
    exact ⟨ts, t1, t2⟩
  · intro k ts hts i s t p hi ht hp
    have hk : k < subs.length := (List.getElem?_eq_some_iff.1 hts).1
    have g1 : surfs[k]? = some surfs[k] := List.getElem?_eq_getElem (by omega)
    have g2 : surfs[k + 1]? = some surfs[k + 1] := List.getElem?_eq_getElem (by omega)
    rw [h4.nodes k _ _ ts g1 g2 hts i s t _ _ hi ht ((hh k _ g1).2 _ _ hp) ((hh (k + 1) _ g2).2 _ _ hp),
      between_update]

theorem profileAdds_args (as : List (Profile × Rest ℝ (Opts (Resolution ℝ × Option String)))) :
    itemArgs (profileAdds as) = as.tail.map fun a => (a.2.opts.sub, a.2.opts.group) := by
  cases as with
  | nil => rfl
  | cons a as => simp only [itemArgs, profileAdds, List.map_cons, List.tail_cons, List.map_map]; rfl

/-- **C124 (2D stacks), partial.** A 2D stack built bottom-up of profiles (functions of the position, or numbers) with
any priorities: all calls succeed, a mesh is generated if the group arguments fit, its cells have the
layers, columns, items and groups of C96, and the node over point `p` of the line at position `t` of item `k` lies at height
`(1 - t) c k p + t c (k + 1) p`, where `c k` is the height of surface `k` as added, raised to keep its minimum thickness if
its priority is lower than that of surface `k - 1`, and lowered to that of surface `k + 1` as added less its minimum thickness
if that one has no lower priority (`cutHeight`; `cutHeight_up`: if priorities never decrease, the lower of the two).
Missing: vector data on the cells of the line (no mesh of three or more items, `C134_vector_stack2d_refuted`). -/
theorem C124_stack2d_partial (area : Arr3 (V3 ℝ) → List ℝ) (harea : ∀ x, (area x).length = count (cells x.d))
    (ignore : List String) (dflt : String) (o : InterpOracle ℝ) (n : ℕ) (mesh : Surf ℝ LineTopo)
    (hmesh : StackLine n mesh) (axis : Fin 3)
    (as : List (Profile × Rest ℝ (Opts (Resolution ℝ × Option String)))) (has : 2 ≤ as.length)
    (hres : ∀ a ∈ as.tail, ∃ ts, resolutionToPerc a.2.opts.sub.1 a.2.opts.sub.2 = .ok ts ∧ fromZeroToOne ts) :
    ∃ s, (Stack.new mesh axis true).run o ((profileAdds as).map addCall) = .ok s ∧
      ((∀ a ∈ as.tail, Acceptable (n - 1) a.2.opts.group) → ∃ R, stack2D area ignore dflt s = .ok R) ∧
      ∀ M table s', stack2D area ignore dflt s = .ok ((M, table), s') →
        (∃ surfs, surfs.length = as.length ∧
          AtHeights axis mesh.points (cutHeight (as.map fun a => (a.1, a.2.thickness, a.2.priority))) surfs ∧
          StackedMeshBy (lineSource (planeShape (stackPlane axis) n 1) axis) area mesh.topo.cellData ignore dflt
            (planeShape (stackPlane axis) n 1) axis (groupCodes mesh.topo.cellData) mesh.topo.table (as.tail.map fun a => (a.2.opts.sub, a.2.opts.group))
            "StackItem" surfs M table) ∧
        ProfileGrid (planeShape (stackPlane axis) n 1) axis mesh.points
          (cutHeight (as.map fun a => (a.1, a.2.thickness, a.2.priority))) (as.tail.map fun a => a.2.opts.sub) M := by
  obtain ⟨s, hs, hat⟩ := profile_items (o := o) (mesh := mesh) (axis := axis) (as := as)
  refine ⟨s, hs, ?_⟩
  have hargs := profileAdds_args as
  obtain ⟨g1, g2⟩ := C96_stack2d_by_position area harea ignore dflt o n mesh hmesh axis true (profileAdds as)
    (by simpa [profileAdds] using has)
    (by
      rw [hargs]; intro x hx
      obtain ⟨a, ha, rfl⟩ := List.mem_map.1 hx
      exact hres a ha) s hs
  refine ⟨?_, ?_⟩
  · intro hacc
    refine g1 ?_
    rw [hargs]; intro x hx
    obtain ⟨a, ha, rfl⟩ := List.mem_map.1 hx
    exact hacc a ha
  · intro M table s' h
    obtain ⟨k1, _, k3⟩ := g2 M table s' h
    rw [hargs] at k3
    have hl : s'.items.length = as.length := by simpa [profileAdds] using k1
    have ha := hat (by simpa only [stack2D, Stack.generateMesh] using h)
    refine ⟨⟨_, by rw [List.length_map]; exact hl, ha, k3⟩, ?_⟩
    have := profile_grid (by simp [hl]; omega) ha k3
    rw [List.map_map] at this
    exact this

/-- **C124 (3D stacks), partial.** The same for a 3D stack on a structured surface that is flat along the stacking axis.
Missing: vector data on the cells (no mesh of three or more items, `C134_vector_stack3d_refuted`); layer and column labels are those of `C97_labels_iff`. -/
theorem C124_stack3d_partial (volume : Arr3 (V3 ℝ) → List ℝ) (hvol : ∀ x, (volume x).length = count (cells x.d))
    (ignore : List String) (dflt : String) (o : InterpOracle ℝ) (d : Fin 3 → ℕ) (mesh : Surf ℝ GridTopo)
    (hmesh : StackGrid d mesh) (axis : Fin 3) (hd : FlatAlong d axis)
    (as : List (Profile × Rest ℝ (Opts (Resolution ℝ × Option String)))) (has : 2 ≤ as.length)
    (hres : ∀ a ∈ as.tail, ∃ ts, resolutionToPerc a.2.opts.sub.1 a.2.opts.sub.2 = .ok ts ∧ fromZeroToOne ts) :
    ∃ s, (Stack.new mesh axis true).run o ((profileAdds as).map addCall) = .ok s ∧
      ((∀ a ∈ as.tail, Acceptable (count (cells d)) a.2.opts.group) → ∃ R, stack3D volume ignore dflt s = .ok R) ∧
      ∀ M table s', stack3D volume ignore dflt s = .ok ((M, table), s') →
        (∃ surfs, surfs.length = as.length ∧
          AtHeights axis mesh.points (cutHeight (as.map fun a => (a.1, a.2.thickness, a.2.priority))) surfs ∧
          StackedMesh volume mesh.topo.cellData ignore dflt d axis (groupCodes mesh.topo.cellData)
            mesh.topo.table (as.tail.map fun a => (a.2.opts.sub, a.2.opts.group)) "StackItem" surfs M table) ∧
        ProfileGrid d axis mesh.points (cutHeight (as.map fun a => (a.1, a.2.thickness, a.2.priority)))
          (as.tail.map fun a => a.2.opts.sub) M := by
  obtain ⟨s, hs, hat⟩ := profile_items (o := o) (mesh := mesh) (axis := axis) (as := as)
  refine ⟨s, hs, ?_⟩
  have hargs := profileAdds_args as
  obtain ⟨g1, g2⟩ := C97_stack3d_partial volume hvol ignore dflt o d mesh hmesh axis hd true (profileAdds as)
    (by simpa [profileAdds] using has)
    (by
      rw [hargs]; intro x hx
      obtain ⟨a, ha, rfl⟩ := List.mem_map.1 hx
      exact hres a ha) s hs
  refine ⟨?_, ?_⟩
  · intro hacc
    refine g1 ?_
    rw [hargs]; intro x hx
    obtain ⟨a, ha, rfl⟩ := List.mem_map.1 hx
    exact hacc a ha
  · intro M table s' h
    obtain ⟨k1, _, k3⟩ := g2 M table s' h
    rw [hargs] at k3
    have hl : s'.items.length = as.length := by simpa [profileAdds] using k1
    have ha := hat (by simpa only [stack3D, Stack.generateMesh] using h)
    refine ⟨⟨_, by rw [List.length_map]; exact hl, ha, k3⟩, ?_⟩
    have := profile_grid (by simp [hl]; omega) ha k3
    rw [List.map_map] at this
    exact this

/-- **C124 (unstructured), partial.** The same for a 3D stack on a surface of triangles, polygons, pixels and quads; `clean`
moves the nodes by the relation `R`.
Missing: other cell types and point data, as in C97. -/
theorem C124_unstructured_partial {R : V3 ℝ → V3 ℝ → Prop} {vtk : VtkOracle ℝ} (ho : AppendsAll vtk.order)
    (hc : Cleans R vtk.clean) (invert : Bool) (ignore : List String) (dflt : String) (o : InterpOracle ℝ)
    (mesh : Surf ℝ UTopo) (hmesh : StackSurf mesh) (axis : Fin 3)
    (as : List (Profile × Rest ℝ (Opts (Resolution ℝ × Option String)))) (has : 2 ≤ as.length)
    (hres : ∀ a ∈ as.tail, ∃ ts, resolutionToPerc a.2.opts.sub.1 a.2.opts.sub.2 = .ok ts ∧ fromZeroToOne ts) :
    ∃ s, (Stack.new mesh axis true).run o ((profileAdds as).map addCall) = .ok s ∧
      ((∀ a ∈ as.tail, Acceptable mesh.topo.cells.length a.2.opts.group) →
        ∃ r, stack3DU vtk invert ignore dflt s = .ok r) ∧
      ∀ M table s', stack3DU vtk invert ignore dflt s = .ok ((M, table), s') →
        ∃ surfs subs names pos node, surfs.length = as.length ∧ subs.length = as.tail.length ∧
          names.length = as.tail.length ∧
          AtHeights axis mesh.points (cutHeight (as.map fun a => (a.1, a.2.thickness, a.2.priority))) surfs ∧
          LayeredU R invert "StackItem" mesh.points.length mesh.topo.cells mesh.topo.cellData surfs subs names M
            table pos node ∧
          ∀ (k : ℕ) a, as[k + 1]? = some a → ∃ ts name, resolutionToPerc a.2.opts.sub.1 a.2.opts.sub.2 = .ok ts ∧
            subs[k]? = some ts ∧ names[k]? = some name ∧
            Labels ignore dflt mesh.topo.cells.length (groupCodes mesh.topo.cellData) mesh.topo.table a.2.opts.group name ∧
            ∀ (j s : ℕ) t p, NodeOf mesh.topo.cells j → ts[s]? = some t → mesh.points[j]? = some p →
              ∃ p', M.points[node (layersIn subs k + s) j]? = some p' ∧
                R p' (Function.update p axis ((1 - t) * cutHeight (as.map fun a => (a.1, a.2.thickness, a.2.priority)) k p +
                  t * cutHeight (as.map fun a => (a.1, a.2.thickness, a.2.priority)) (k + 1) p)) := by
  obtain ⟨s, hs, hat⟩ := profile_items (o := o) (mesh := mesh) (axis := axis) (as := as)
  refine ⟨s, hs, ?_⟩
  have hargs := profileAdds_args as
  obtain ⟨g1, g2⟩ := C97_unstructured_partial ho hc invert ignore dflt o mesh hmesh axis true (profileAdds as)
    (by simpa [profileAdds] using has)
    (by
      rw [hargs]; intro x hx
      obtain ⟨a, ha, rfl⟩ := List.mem_map.1 hx
      exact hres a ha) s hs
  refine ⟨?_, ?_⟩
  · intro hacc
    refine g1 ?_
    rw [hargs]; intro x hx
    obtain ⟨a, ha, rfl⟩ := List.mem_map.1 hx
    exact hacc a ha
  · intro M table s' h
    obtain ⟨k1, _, k3⟩ := g2 M table s' h
    rw [hargs] at k3
    have hl : s'.items.length = as.length := by simpa [profileAdds] using k1
    have ha := hat (by simpa only [stack3DU, Stack.generateU] using h)
    obtain ⟨subs, names, pos, node, e1, e2, e3, e4⟩ := k3
    rw [List.length_map] at e1 e2
    refine ⟨_, subs, names, pos, node, by rw [List.length_map]; exact hl, e1, e2, ha, e4, ?_⟩
    intro k a hk
    obtain ⟨ts, name, t1, t2, t3, t4⟩ := e3 k (a.2.opts.sub, a.2.opts.group) (by simp [hk])
    refine ⟨ts, name, t1, t2, t3, t4, ?_⟩
    intro j s t p hj ht hp
    have hk' : k + 1 < s'.items.length := by rw [hl]; exact (List.getElem?_eq_some_iff.1 hk).1
    have q1 : (s'.items.map fun it => it.mesh.points)[k]? = some s'.items[k].mesh.points := by
      simp [List.getElem?_eq_getElem (show k < s'.items.length by omega)]
    have q2 : (s'.items.map fun it => it.mesh.points)[k + 1]? = some s'.items[k + 1].mesh.points := by
      simp [List.getElem?_eq_getElem hk']
    obtain ⟨p', y1, y2⟩ := e4.nodes k _ _ ts q1 q2 t2 j s t _ _ hj ht ((ha k _ q1).2 _ _ hp) ((ha (k + 1) _ q2).2 _ _ hp)
    rw [between_update] at y2
    exact ⟨p', y1, y2⟩

/-- A flat bottom, a tilted plane above it (of higher priority), and a layer of thickness 2 upon it, of lower priority and
with a minimum thickness of 3. -/
def someProfiles : List (Profile × Rest ℝ (Opts (Resolution ℝ × Option String))) :=
  [(.thick 0, ⟨none, ⟨(.int 1, none), .none⟩, 0, 0⟩),
    (.height fun p => 3 - 2 * p 0, ⟨none, ⟨(.int 2, none), .none⟩, 1, 1⟩),
    (.thick (-2), ⟨none, ⟨(.int 3, some "log"), .dict [("C", .mask [true, false])]⟩, 0, 3⟩)]

theorem someProfiles_ok : 2 ≤ someProfiles.length ∧
    (∀ a ∈ someProfiles.tail, ∃ ts, resolutionToPerc a.2.opts.sub.1 a.2.opts.sub.2 = .ok ts ∧ fromZeroToOne ts) ∧
    ∀ a ∈ someProfiles.tail, Acceptable 2 a.2.opts.group := by
  refine ⟨by simp [someProfiles], ?_, ?_⟩
  · intro a ha
    refine someAdds_res (a.2.opts.sub, a.2.opts.group) ?_
    simp only [someProfiles, List.tail_cons, List.mem_cons, List.not_mem_nil, or_false] at ha
    rcases ha with rfl | rfl <;> simp [itemArgs, someAdds]
  · intro a ha
    simp only [someProfiles, List.tail_cons, List.mem_cons, List.not_mem_nil, or_false] at ha
    rcases ha with rfl | rfl
    · simp [Acceptable, entries]
    · intro kv hkv
      simp only [entries, List.mem_singleton] at hkv
      subst hkv
      rfl

/-- The bottom is cut where the tilted plane less its minimum thickness comes below it: over the point (2, 0, 0) to -2, over
(0, 0, 0) not at all; the plane keeps its height, and the top is pushed up from 1 to 2 to keep its minimum thickness. -/
theorem someProfiles_cut : cutHeight (someProfiles.map fun a => (a.1, a.2.thickness, a.2.priority)) 0 ![2, 0, 0] = -2 ∧
    cutHeight (someProfiles.map fun a => (a.1, a.2.thickness, a.2.priority)) 0 ![0, 0, 0] = 0 ∧
    cutHeight (someProfiles.map fun a => (a.1, a.2.thickness, a.2.priority)) 1 ![2, 0, 0] = -1 ∧
    cutHeight (someProfiles.map fun a => (a.1, a.2.thickness, a.2.priority)) 2 ![2, 0, 0] = 2 := by
  refine ⟨?_, ?_, ?_, ?_⟩ <;> simp [cutHeight, pushedHeight, someProfiles, profileHeight] <;> norm_num

/-- Concrete case of C124: the stack of these profiles on the line, along z, is generated. -/
example (area : Arr3 (V3 ℝ) → List ℝ) (harea : ∀ x, (area x).length = count (cells x.d)) (o : InterpOracle ℝ) :
    ∃ s R, (Stack.new (lineX ℝ) 2 true).run o ((profileAdds someProfiles).map addCall) = .ok s ∧
      stack2D area [] "default" s = .ok R := by
  obtain ⟨p1, p3, p4⟩ := someProfiles_ok
  obtain ⟨s, hs, g, _⟩ := C124_stack2d_partial area harea [] "default" o 3 (lineX ℝ) lineX_ok 2 someProfiles p1
    (fun a ha => by
      obtain ⟨ts, h1, h2⟩ := p3 a ha
      exact ⟨ts, h1, h2⟩)
  obtain ⟨R, hR⟩ := g p4
  exact ⟨s, R, hs, hR⟩

/-- The same on the structured square. -/
example (volume : Arr3 (V3 ℝ) → List ℝ) (hvol : ∀ x, (volume x).length = count (cells x.d)) (o : InterpOracle ℝ) :
    ∃ s R, (Stack.new (squareXY ℝ) 2 true).run o ((profileAdds someProfiles).map addCall) = .ok s ∧
      stack3D volume [] "default" s = .ok R := by
  obtain ⟨p1, p3, p4⟩ := someProfiles_ok
  obtain ⟨s, hs, g, _⟩ := C124_stack3d_partial volume hvol [] "default" o ![3, 2, 1] (squareXY ℝ) squareXY_ok 2
    ⟨rfl, by decide⟩ someProfiles p1 p3
  obtain ⟨R, hR⟩ := g p4
  exact ⟨s, R, hs, hR⟩

/-- The same on the kite. -/
example (o : InterpOracle ℝ) :
    ∃ s R, (Stack.new kiteXY 2 true).run o ((profileAdds someProfiles).map addCall) = .ok s ∧
      stack3DU exactVtk true [] "default" s = .ok R := by
  obtain ⟨p1, p3, p4⟩ := someProfiles_ok
  obtain ⟨s, hs, g, _⟩ := C124_unstructured_partial exactVtk_ok.1 exactVtk_ok.2 true [] "default" o kiteXY kiteXY_ok 2
    someProfiles p1 p3
  obtain ⟨R, hR⟩ := g p4
  exact ⟨s, R, hs, hR⟩

end Gridder
