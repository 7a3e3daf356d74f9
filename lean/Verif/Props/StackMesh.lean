import Verif.Props.Generate
import Verif.Props.Resolution

/-!
# C96-C98: from the calls to the generated mesh
-/

namespace Gridder
open Spec

/-! ## group arguments that are accepted -/

namespace Spec

/-- The selection fits a mesh with `n` cells. -/
def Fits (n : ℕ) : Sel → Prop
  | .mask m => m.length = n
  | .callMask m => m.length = n
  | .idx ix => ∀ x ∈ ix, -(n : ℤ) ≤ x ∧ x < n
  | _ => False

/-- No group, a name, or a dictionary of masks of the right size and valid indices. -/
def Acceptable (n : ℕ) (group : GroupArg) : Prop := ∀ kv ∈ entries n group, Fits n kv.2

end Spec

theorem assignInt_total {α : Type _} (v : α) : ∀ (ix : List Int) (arr : List α),
    (∀ x ∈ ix, -(arr.length : ℤ) ≤ x ∧ x < arr.length) → ∃ out, assignInt arr ix v = .ok out ∧ out.length = arr.length
  | [], arr, _ => ⟨arr, rfl, rfl⟩
  | x :: ix, arr, h => by
    obtain ⟨h1, h2⟩ := h x (by simp)
    have : ∃ j, normIdx arr.length x = some j := by
      unfold normIdx
      split_ifs <;> first | exact ⟨_, rfl⟩ | omega
    obtain ⟨j, hj⟩ := this
    obtain ⟨out, h3, h4⟩ := assignInt_total v ix (arr.set j v) (by
      intro y hy; rw [List.length_set]; exact h y (List.mem_cons_of_mem _ hy))
    exact ⟨out, by simp only [assignInt, hj]; exact h3, by rw [h4, List.length_set]⟩

theorem assignBool_total {α : Type _} (v : α) {m : List Bool} {arr : List α} (h : m.length = arr.length) :
    ∃ out, assignBool arr m v = .ok out ∧ out.length = arr.length :=
  ⟨_, by rw [assignBool, if_pos h], by simp [h]⟩

theorem groupLoop_total (mesh : LMesh) : ∀ (l : List (String × Sel)) (st : List Int × Dict String Int),
    st.1.length = mesh.nCells → (∀ kv ∈ l, Fits mesh.nCells kv.2) → ∃ st', groupLoop mesh l st = .ok st'
  | [], st, _, _ => ⟨st, rfl⟩
  | kv :: l, st, hst, h => by
    have hsel : ∃ m, selMask mesh st.2 kv.2 = .ok (.bool m) ∧ m.length = mesh.nCells := by
      have := h kv (by simp)
      cases hs : kv.2 with
      | mask m => rw [hs] at this; exact ⟨m, rfl, this⟩
      | callMask m => rw [hs] at this; exact ⟨m, rfl, this⟩
      | idx ix =>
        rw [hs] at this
        obtain ⟨out, h1, h2⟩ := assignInt_total true ix (List.replicate mesh.nCells false)
          (by simpa [Fits] using this)
        exact ⟨out, by simp [selMask, h1], by simpa using h2⟩
      | callIdx _ => rw [hs] at this; exact absurd this id
      | name _ => rw [hs] at this; exact absurd this id
      | names _ => rw [hs] at this; exact absurd this id
      | other => rw [hs] at this; exact absurd this id
    obtain ⟨m, h1, h2⟩ := hsel
    have hstep : ∃ st1, groupStep mesh st kv = .ok st1 ∧ st1.1.length = mesh.nCells := by
      simp only [groupStep, h1]
      generalize getGroupNumber (parseKey kv.1).2 st.2 = r
      obtain ⟨num, g⟩ := r
      cases (parseKey kv.1).1 with
      | true =>
        obtain ⟨out, e1, e2⟩ := assignBool_total num (m := m.map (!·)) (arr := st.1) (by simp [h2, hst])
        exact ⟨(out, g), by simp only [if_true, NpMask.invert, NpMask.assign]; rw [e1], by simp [e2, hst]⟩
      | false =>
        obtain ⟨out, e1, e2⟩ := assignBool_total num (m := m) (arr := st.1) (by simp [h2, hst])
        exact ⟨(out, g), by simp only [Bool.false_eq_true, if_false, NpMask.assign]; rw [e1], by simp [e2, hst]⟩
    obtain ⟨st1, e1, e2⟩ := hstep
    simp only [groupLoop, e1]
    exact groupLoop_total mesh l st1 e2 (fun kv hkv => h kv (List.mem_cons_of_mem _ hkv))

theorem tableLoop_length (ignore : List String) (data : List Int) :
    ∀ (l : Dict String Int) (st : List Int × Dict String Int), st.1.length = data.length →
      (tableLoop ignore data l st).1.length = data.length
  | [], st, h => h
  | (k, v) :: l, st, h => by
    simp only [tableLoop]
    split
    · exact tableLoop_length ignore data l st h
    · exact tableLoop_length ignore data l _ (by simp [h])

theorem initGroupArray_total {ignore : List String} {dflt : String} {mesh : LMesh}
    (hdata : ∀ x, mesh.cellGroup = some x → x.length = mesh.nCells) {group : GroupArg}
    (hg : Acceptable mesh.nCells group) (groups : Dict String Int) :
    ∃ r, initGroupArray ignore dflt mesh groups group none = .ok r := by
  have hl : (copyLabels ignore mesh (List.replicate mesh.nCells (-1), groups)).1.length = mesh.nCells := by
    simp only [copyLabels]
    split
    · rename_i data table hd ht
      rw [← hdata _ hd]
      exact tableLoop_length _ _ _ _ (by simp)
    · simp
  obtain ⟨st, h⟩ := groupLoop_total mesh (groupItems mesh.nCells group) _ hl (by rw [groupItems_eq]; exact hg)
  exact ⟨_, by simp only [initGroupArray, h]; rfl⟩

section
variable {K : Type _} [Field K] [LinearOrder K] {τ ρ : Type _}

theorem submeshes_total (kit : Kit K τ ρ) {ignore : List String} {dflt key : String}
    (hkey : key ≠ "LayerId" ∧ key ≠ "ColumnId")
    {d : Ix} {axis : Fin 3} (hd : d axis = 1) (hpos : ∀ ax, 1 ≤ d ax) (perc : ρ → List K) :
    ∀ (rest : List (GItem K τ ρ)) (a : GItem K τ ρ) (groups : Dict String Int) (nl i : ℕ),
      (∀ it ∈ a :: rest, (kit.labels it.1).nCells = count (cells d) ∧
        ∀ x, (kit.labels it.1).cellGroup = some x → x.length = (kit.labels it.1).nCells) →
      (∀ it ∈ rest, ∃ o, it.2 = some o ∧ 2 ≤ (perc o.sub).length ∧ Acceptable (count (cells d)) o.group) →
      (∀ (k : ℕ) x y o arr, (a :: rest)[k]? = some x → rest[k]? = some y → y.2 = some o →
        arr.length = count (cells d) → ∃ p, kit.extrude (kit.withGroup x.1 arr) y.1 o.sub = .ok p ∧
        BetweenBy src area base d axis x.1.points y.1.points (perc o.sub) arr p) →
      DenseTable groups →
      ∃ r, submeshes kit ignore dflt key a rest groups nl i = .ok r := by
  intro rest
  induction rest with
  | nil => intro a groups nl i _ _ _ _; exact ⟨_, rfl⟩
  | cons b rest ih =>
    intro a groups nl i hlab hopt hext hg
    obtain ⟨o, ho, hts, hacc⟩ := hopt b (by simp)
    obtain ⟨hn, hdata⟩ := hlab a (by simp)
    obtain ⟨⟨arr, groups'⟩, hr⟩ := initGroupArray_total (ignore := ignore) (dflt := dflt) hdata
      (group := o.group) (by rw [hn]; exact hacc) groups
    obtain ⟨harr, hdense, _⟩ := C02_every_cell_has_a_group hdata hg hr
    rw [hn] at harr
    obtain ⟨p, hp, hb⟩ := hext 0 a b o arr rfl rfl ho harr
    have hcpos : 0 < count (cells d) := by
      have h0 : 0 < cells d 0 := by simp only [cells]; split <;> [omega; (have := hpos 0; omega)]
      have h1 : 0 < cells d 1 := by simp only [cells]; split <;> [omega; (have := hpos 1; omega)]
      have h2 : 0 < cells d 2 := by simp only [cells]; split <;> [omega; (have := hpos 2; omega)]
      unfold count; positivity
    have hcount : count (cells p.nodes.d) = count (cells d) * ((perc o.sub).length - 1) := by
      rw [hb.shape, cells_updateAxis hd hts, count_update (cells_axis hd)]
    obtain ⟨q, hq, _⟩ := labelGrid_ok hkey (nl := nl) (i := i) hcpos hb.piece hcount
    obtain ⟨r, hr'⟩ := ih b groups' (nl + ((perc o.sub).length - 1)) (i + 1)
      (fun it hit => hlab it (List.mem_cons_of_mem _ hit))
      (fun it hit => hopt it (List.mem_cons_of_mem _ hit))
      (fun k x y o arr hx hy => hext (k + 1) x y o arr (by simpa using hx) (by simpa using hy)) hdense
    exact ⟨_, by simp only [submeshes, ho, hr, hp, hn, hq, hr']; rfl⟩

/-! ## the items of a stack -/

variable {ω : Type _}

/-- `add(arg, ...)`. -/
def addCall (x : AddArg K × Rest K ω) : Call K τ ω :=
  .add x.1 x.2.extrapolation x.2.opts x.2.priority x.2.thickness

/-- The item is the base mesh moved along the axis. -/
structure Spec.OnBase (axis : Fin 3) (mesh : Surf K τ) (m : Surf K τ) : Prop where
  topo : m.topo = mesh.topo
  size : m.points.length = mesh.points.length
  coords : ∀ (j : ℕ) (p q : Fin 3 → K), mesh.points[j]? = some p → m.points[j]? = some q →
    ∀ ax, ax ≠ axis → q ax = p ax

theorem newMesh_onBase {o : InterpOracle K} {s : Stack K τ ω} {arg : AddArg K} {e : Option String} {m : Surf K τ}
    (h : newMesh o s arg e = .ok m) (hs : ∀ it ∈ s.items, OnBase s.axis s.mesh it.mesh) : OnBase s.axis s.mesh m := by
  by_cases hn : NotScalar arg
  · obtain ⟨h1, h2, h3⟩ := newMesh_base h hn
    exact ⟨h1, h2, h3⟩
  · cases arg with
    | scalar x =>
      simp only [newMesh] at h
      split at h
      · cases h
        refine ⟨rfl, by simp, ?_⟩
        intro j p q hp hq ax hax
        simp only [List.getElem?_map, hp, Option.map_some, Option.some.injEq] at hq
        rw [← hq, Function.update_of_ne hax]
      · rename_i it hit
        cases h
        obtain ⟨h1, h2, h3⟩ := hs it (List.mem_of_getLast? hit)
        refine ⟨h1, by simpa using h2, ?_⟩
        intro j p q hp hq ax hax
        rw [List.getElem?_map] at hq
        cases hr : it.mesh.points[j]? with
        | none => rw [hr] at hq; cases hq
        | some r =>
          rw [hr] at hq
          simp only [Option.map_some, Option.some.injEq] at hq
          rw [← hq, Function.update_of_ne hax]
          exact h3 j p r hp hr ax hax
    | _ => exact absurd trivial hn

theorem run_adds {o : InterpOracle K} : ∀ (adds : List (AddArg K × Rest K ω)) (s s' : Stack K τ ω),
    s.run o (adds.map addCall) = .ok s' → s.flag = false →
    (∀ it ∈ s.items, OnBase s.axis s.mesh it.mesh ∧ it.transition = false) →
    s'.mesh = s.mesh ∧ s'.axis = s.axis ∧ s'.bottomUp = s.bottomUp ∧
      (∀ it ∈ s'.items, OnBase s.axis s.mesh it.mesh ∧ it.transition = false) ∧
      ∃ new, s'.items = s.items ++ new ∧ new.length = adds.length ∧
        ∀ (k : ℕ) it a, new[k]? = some it → adds[k]? = some a →
          it.priority = a.2.priority ∧
          (s.items.length + k ≠ 0 → it.opts = some a.2.opts ∧ it.thickness = a.2.thickness) := by
  intro adds
  induction adds with
  | nil =>
    intro s s' h _ hs
    simp only [List.map_nil, Stack.run, Except.ok.injEq] at h
    subst h
    exact ⟨rfl, rfl, rfl, hs, [], by simp, rfl, by simp⟩
  | cons a adds ih =>
    intro s s' h hf hs
    simp only [List.map_cons, Stack.run, Stack.call, addCall, Stack.add] at h
    cases hm : newMesh o s a.1 a.2.extrapolation with
    | error _ => rw [hm] at h; cases h
    | ok m =>
      rw [hm] at h
      simp only at h
      have hmb := newMesh_onBase hm (fun it hit => (hs it hit).1)
      obtain ⟨h1, h2, h3, h4, new, h5, h6, h7⟩ := ih _ s' h rfl (by
        intro it hit
        rcases List.mem_append.1 hit with hit | hit
        · exact hs it hit
        · rw [List.mem_singleton] at hit
          subst hit
          split
          · exact ⟨hmb, rfl⟩
          · exact ⟨hmb, hf⟩)
      simp only [List.append_assoc] at h5
      refine ⟨h1, h2, h3, h4, _, h5, by simp [h6], ?_⟩
      intro k it b hit hb
      cases k with
      | zero =>
        simp only [List.singleton_append, List.getElem?_cons_zero, Option.some.injEq] at hit hb
        subst hb
        subst hit
        refine ⟨by split <;> rfl, ?_⟩
        intro hne
        have : s.items.isEmpty = false := by
          cases hi : s.items with
          | nil => rw [hi] at hne; simp at hne
          | cons _ _ => rfl
        simp [this]
      | succ k =>
        simp only [List.singleton_append, List.getElem?_cons_succ] at hit hb
        obtain ⟨e1, e2⟩ := h7 k it b hit hb
        exact ⟨e1, fun _ => e2 (by simp)⟩

theorem cutFrom_total {axis : Fin 3} {bu : Bool} {n : ℕ} : ∀ (rest : List (Item K τ ω)) (a : Item K τ ω),
    (∀ it ∈ a :: rest, it.mesh.points.length = n) → ∃ out, cutFrom axis bu a rest = .ok out := by
  intro rest
  induction rest with
  | nil => intro a _; exact ⟨_, rfl⟩
  | cons b rest ih =>
    intro a h
    simp only [cutFrom]
    have ha := h a (by simp)
    have hb := h b (by simp)
    split
    · obtain ⟨out, ho⟩ := ih b (fun it hit => h it (List.mem_cons_of_mem _ hit))
      exact ⟨_, by rw [ho]⟩
    · cases hc : cutPair axis bu a b with
      | error e =>
        exfalso
        simp only [cutPair, ha, hb, ne_eq, not_true_eq_false, if_false] at hc
        split at hc <;> cases hc
      | ok ab =>
        obtain ⟨a', b'⟩ := ab
        obtain ⟨_, _, sb, _⟩ := cutPair_spec hc
        obtain ⟨out, ho⟩ := ih b' (by
          intro it hit
          rcases List.mem_cons.1 hit with rfl | hit
          · rw [sb.length]; exact hb
          · exact h it (List.mem_cons_of_mem _ (List.mem_cons_of_mem _ hit)))
        exact ⟨_, by simp only [ho]; rfl⟩

theorem plainItems_ok : ∀ (l : List (Item K τ (Opts ρ))), (∀ it ∈ l, it.transition = false) →
    plainItems l = .ok (l.map fun it => (it.mesh, it.opts))
  | [], _ => rfl
  | it :: l, h => by
    simp only [plainItems, h it (by simp), Bool.false_eq_true, if_false]
    rw [plainItems_ok l (fun it hit => h it (List.mem_cons_of_mem _ hit))]
    rfl

/-- The general result on stacks. -/
theorem stack_layered [IsStrictOrderedRing K] (kit : Kit K τ ρ) {ignore : List String} {dflt : String}
    {d : Ix} {axis : Fin 3} (hd : d axis = 1) (hpos : ∀ ax, 1 ≤ d ax)
    {src : List K → Ix → ℕ → ℕ} (hsrc : ∀ ts i s, InShape (cells d) i → s < ts.length - 1 → src ts i s < count (cells d))
    (perc : ρ → List K) (o : InterpOracle K)
    (mesh : Surf K τ) (bottomUp : Bool) (adds : List (AddArg K × Rest K (Opts ρ))) (hadds : 2 ≤ adds.length)
    (hsize : mesh.points.length = count d)
    (hlab : ∀ m, OnBase axis mesh m → kit.labels m = kit.labels mesh)
    (hcells : (kit.labels mesh).nCells = count (cells d))
    (hdata : ∀ x, (kit.labels mesh).cellGroup = some x → x.length = count (cells d))
    (hts : ∀ (k : ℕ) a, adds[k + 1]? = some a →
      fromZeroToOne (perc a.2.opts.sub))
    (hext : ∀ x y, OnBase axis mesh x → OnBase axis mesh y → ∀ (k : ℕ) a, adds[k + 1]? = some a →
      ∀ arr, arr.length = count (cells d) → ∃ p, kit.extrude (kit.withGroup x arr) y a.2.opts.sub = .ok p ∧
        BetweenBy src area base d axis x.points y.points (perc a.2.opts.sub) arr p)
    (s : Stack K τ (Opts ρ)) (hs : (Stack.new mesh axis bottomUp).run o (adds.map addCall) = .ok s) :
    ((∀ (k : ℕ) a, adds[k + 1]? = some a → Acceptable (count (cells d)) a.2.opts.group) →
      ∃ M table s', s.generateMesh kit ignore dflt = .ok ((M, table), s')) ∧
    ∀ M table s', s.generateMesh kit ignore dflt = .ok ((M, table), s') →
      s'.items.length = adds.length ∧ (∀ it ∈ s'.items, OnBase axis mesh it.mesh) ∧
      ∃ subs names, subs.length + 1 = adds.length ∧ names.length + 1 = adds.length ∧
        (∀ (k : ℕ) a, adds[k + 1]? = some a → ∃ name, subs[k]? = some (perc a.2.opts.sub) ∧
          names[k]? = some name ∧ Labels ignore dflt (count (cells d)) (kit.labels mesh).cellGroup
            (kit.labels mesh).table a.2.opts.group name) ∧
        LayeredBy src area base "StackItem" d axis (s'.items.map fun it => it.mesh.points) subs names M table := by
  obtain ⟨_, h2, h3, h4, new, h5, h6, h7⟩ := run_adds adds _ s hs rfl (by simp [Stack.new])
  simp only [Stack.new, List.nil_append, List.length_nil, Nat.zero_add] at h2 h3 h4 h5 h7
  have hlen : s.items.length = adds.length := by rw [h5, h6]
  obtain ⟨a, b, rest, hitems⟩ : ∃ a b rest, s.items = a :: b :: rest := by
    match hi : s.items with
    | [] => rw [hi] at hlen; simp at hlen; omega
    | [_] => rw [hi] at hlen; simp at hlen; omega
    | a :: b :: rest => exact ⟨a, b, rest, rfl⟩
  -- everything about the items after the cut pass
  have hout : ∀ out, cutFrom axis bottomUp a (b :: rest) = .ok out →
      out.length = adds.length ∧ (∀ it ∈ out, OnBase axis mesh it.mesh ∧ it.transition = false) ∧
      ∀ (k : ℕ) it a, out[k + 1]? = some it → adds[k + 1]? = some a → it.opts = some a.2.opts := by
    intro out ho
    obtain ⟨e1, e2⟩ := cutFrom_same ho
    have el : out.length = adds.length := by rw [e1, ← hlen, hitems]; rfl
    refine ⟨el, ?_, ?_⟩
    · intro it hit
      obtain ⟨k, hk⟩ := List.getElem?_of_mem hit
      have hk' : k < (a :: b :: rest).length := by
        rw [← hitems, hlen, ← el]; exact (List.getElem?_eq_some_iff.1 hk).1
      obtain ⟨y, hy, sy⟩ := e2 k _ (List.getElem?_eq_getElem hk')
      rw [hk] at hy; cases hy
      obtain ⟨f1, f2⟩ := h4 (a :: b :: rest)[k] (by rw [hitems]; exact List.getElem_mem _)
      refine ⟨⟨by rw [sy.topo, f1.topo], by rw [sy.length, f1.size], ?_⟩, by rw [sy.transition, f2]⟩
      intro j p q hp hq ax hax
      have hj : j < (a :: b :: rest)[k].mesh.points.length := by
        rw [f1.size]; exact (List.getElem?_eq_some_iff.1 hp).1
      rw [sy.coords j _ q (List.getElem?_eq_getElem hj) hq ax hax]
      exact f1.coords j p _ hp (List.getElem?_eq_getElem hj) ax hax
    · intro k it x hit hx
      have hk' : k + 1 < (a :: b :: rest).length := by
        rw [← hitems, hlen, ← el]; exact (List.getElem?_eq_some_iff.1 hit).1
      obtain ⟨y, hy, sy⟩ := e2 (k + 1) _ (List.getElem?_eq_getElem hk')
      rw [hit] at hy; cases hy
      rw [sy.opts]
      refine ((h7 (k + 1) _ x ?_ hx).2 (by simp)).1
      rw [← h5, hitems]
      exact List.getElem?_eq_getElem hk'
  -- and about the assembly
  have hasm : ∀ out, cutFrom axis bottomUp a (b :: rest) = .ok out →
      ∃ x y l, (out.map fun it => (it.mesh, it.opts)) = x :: y :: l ∧
      (∀ it ∈ x :: y :: l, OnBase axis mesh it.1) ∧ (x :: y :: l).length = adds.length ∧
      ∀ (k : ℕ) it a, (y :: l)[k]? = some it → adds[k + 1]? = some a → it.2 = some a.2.opts := by
    intro out ho
    obtain ⟨e1, e2, e3⟩ := hout out ho
    match hq : out with
    | [] => simp at e1; omega
    | [_] => simp at e1; omega
    | x :: y :: l =>
      refine ⟨_, _, l.map fun it => (it.mesh, it.opts), rfl, ?_, by simpa using e1, ?_⟩
      · intro it hit
        rw [← List.map_cons (f := fun it : Item K τ (Opts ρ) => (it.mesh, it.opts)),
          ← List.map_cons (f := fun it : Item K τ (Opts ρ) => (it.mesh, it.opts))] at hit
        obtain ⟨z, hz, rfl⟩ := List.mem_map.1 hit
        exact (e2 z hz).1
      · intro k it a hit ha
        rw [← List.map_cons (f := fun it : Item K τ (Opts ρ) => (it.mesh, it.opts)), List.getElem?_map] at hit
        cases hz : (y :: l)[k]? with
        | none => rw [hz] at hit; cases hit
        | some z =>
          rw [hz] at hit
          simp only [Option.map_some, Option.some.injEq] at hit
          subst hit
          exact e3 k z a (by simpa using hz) ha
  have hgen : ∀ out, cutFrom axis bottomUp a (b :: rest) = .ok out →
      ∀ x y l, (out.map fun it => (it.mesh, it.opts)) = x :: y :: l →
      (∀ it ∈ x :: y :: l, OnBase axis mesh it.1) → (x :: y :: l).length = adds.length →
      (∀ (k : ℕ) it a, (y :: l)[k]? = some it → adds[k + 1]? = some a → it.2 = some a.2.opts) →
      (∀ it ∈ x :: y :: l, it.1.points.length = count d ∧ (kit.labels it.1).nCells = count (cells d) ∧
        ∀ c, (kit.labels it.1).cellGroup = some c → c.length = (kit.labels it.1).nCells) ∧
      (∀ (k : ℕ) it, (y :: l)[k]? = some it → ∃ a, adds[k + 1]? = some a ∧ it.2 = some a.2.opts) := by
    intro out ho x y l _ g1 g2 g3
    constructor
    · intro it hit
      have hb := g1 it hit
      refine ⟨by rw [hb.size, hsize], by rw [hlab _ hb, hcells], ?_⟩
      rw [hlab _ hb, hcells]; exact hdata
    · intro k it hk
      have hk' : k + 1 < adds.length := by
        rw [← g2]; have := (List.getElem?_eq_some_iff.1 hk).1; simp at this ⊢; omega
      exact ⟨_, List.getElem?_eq_getElem hk', g3 k it _ hk (List.getElem?_eq_getElem hk')⟩
  constructor
  · intro hacc
    obtain ⟨out, ho⟩ := cutFrom_total (axis := axis) (bu := bottomUp) (n := mesh.points.length) (b :: rest) a (by
      intro it hit; exact (h4 it (by rw [hitems]; exact hit)).1.size)
    obtain ⟨e1, e2, e3⟩ := hout out ho
    obtain ⟨x, y, l, g0, g1, g2, g3⟩ := hasm out ho
    obtain ⟨f1, f2⟩ := hgen out ho x y l g0 g1 g2 g3
    obtain ⟨r, hr⟩ := submeshes_total kit (ignore := ignore) (dflt := dflt) (key := "StackItem")
      ⟨by decide, by decide⟩ hd hpos perc (y :: l) x [] 0 0 (fun it hit => (f1 it hit).2)
      (by
        intro it hit
        obtain ⟨k, hk⟩ := List.getElem?_of_mem hit
        obtain ⟨c, hc1, hc2⟩ := f2 k it hk
        exact ⟨_, hc2, (hts k c hc1).1, hacc k c hc1⟩)
      (by
        intro k p q oo arr hp hq hoo harr
        obtain ⟨c, hc1, hc2⟩ := f2 k q hq
        rw [hoo] at hc2; cases hc2
        exact hext p.1 q.1 (g1 p (List.mem_of_getElem? hp))
          (g1 q (List.mem_cons_of_mem _ (List.mem_of_getElem? hq))) k c hc1 arr harr)
      ⟨by simp, by simp⟩
    obtain ⟨M, table, hM⟩ := (assemble_ok kit (ignore := ignore) (dflt := dflt) (key := "StackItem")
      ⟨by decide, by decide, by decide, by decide⟩ hd hpos hsrc perc x y l f1
      (by
        intro it hit oo hoo
        obtain ⟨k, hk⟩ := List.getElem?_of_mem hit
        obtain ⟨c, hc1, hc2⟩ := f2 k it hk
        rw [hoo] at hc2; cases hc2
        exact hts k c hc1)
      (by
        intro k p q oo arr m hp hq hoo harr hm
        obtain ⟨c, hc1, hc2⟩ := f2 k q hq
        rw [hoo] at hc2; cases hc2
        obtain ⟨m', hm', hbt⟩ := hext p.1 q.1 (g1 p (List.mem_of_getElem? hp))
          (g1 q (List.mem_cons_of_mem _ (List.mem_of_getElem? hq))) k c hc1 arr harr
        rw [hm] at hm'; cases hm'
        exact hbt)).1 r.1 r.2 hr
    refine ⟨M, table, { s with items := out }, ?_⟩
    simp only [Stack.generateMesh, Stack.generate, hitems, h2, h3, ho, buildStack,
      plainItems_ok out (fun it hit => (e2 it hit).2), g0, hM]
  · intro M table s' h
    simp only [Stack.generateMesh] at h
    obtain ⟨a', rest', i1, i2, i3, i4, _⟩ := generate_inv h
    rw [hitems] at i1; cases i1
    rw [h2, h3] at i2
    obtain ⟨e1, e2, e3⟩ := hout _ i2
    obtain ⟨x, y, l, g0, g1, g2, g3⟩ := hasm _ i2
    obtain ⟨f1, f2⟩ := hgen _ i2 x y l g0 g1 g2 g3
    refine ⟨e1, fun it hit => (e2 it hit).1, ?_⟩
    simp only [buildStack, plainItems_ok s'.items (fun it hit => (e2 it hit).2), g0, h2] at i3
    obtain ⟨subs, names, n1, n2, n3, n4⟩ := (assemble_ok kit (ignore := ignore) (dflt := dflt) (key := "StackItem")
      ⟨by decide, by decide, by decide, by decide⟩ hd hpos hsrc perc x y l f1
      (by
        intro it hit oo hoo
        obtain ⟨k, hk⟩ := List.getElem?_of_mem hit
        obtain ⟨c, hc1, hc2⟩ := f2 k it hk
        rw [hoo] at hc2; cases hc2
        exact hts k c hc1)
      (by
        intro k p q oo arr m hp hq hoo harr hm
        obtain ⟨c, hc1, hc2⟩ := f2 k q hq
        rw [hoo] at hc2; cases hc2
        obtain ⟨m', hm', hbt⟩ := hext p.1 q.1 (g1 p (List.mem_of_getElem? hp))
          (g1 q (List.mem_cons_of_mem _ (List.mem_of_getElem? hq))) k c hc1 arr harr
        rw [hm] at hm'; cases hm'
        exact hbt)).2 M table i3
    simp only [List.length_cons] at g2
    refine ⟨subs, names, by omega, by omega, ?_, ?_⟩
    · intro k c hc
      have hk : k < (y :: l).length := by
        have := (List.getElem?_eq_some_iff.1 hc).1; simp only [List.length_cons]; omega
      have hk2 : k < (x :: y :: l).length := by simp only [List.length_cons] at hk ⊢; omega
      obtain ⟨oo, nm, m1, m2, m3, m4⟩ := n3 k _ _ (List.getElem?_eq_getElem hk2) (List.getElem?_eq_getElem hk)
      have := g3 k _ c (List.getElem?_eq_getElem hk) hc
      rw [m1] at this; cases this
      refine ⟨nm, m2, m3, ?_⟩
      rw [hlab _ (g1 _ (List.getElem_mem hk2))] at m4
      exact m4
    · rw [← g0, List.map_map] at n4
      exact n4

end

/-! ## the classes -/

/-- The positions of an item's nodes between the previous surface (0) and its own (1). -/
noncomputable def percOf (r : Resolution ℝ × Option String) : List ℝ := (resolutionToPerc r.1 r.2).toOption.getD []

theorem percOf_ok {r : Resolution ℝ × Option String} {ts : List ℝ} (h : resolutionToPerc r.1 r.2 = .ok ts) :
    percOf r = ts := by simp [percOf, h, Except.toOption]

theorem stackLine_onBase {n : ℕ} {axis : Fin 3} {mesh m : Surf ℝ LineTopo} (h : StackLine n mesh)
    (hm : OnBase axis mesh m) : StackLine n m := by
  obtain ⟨⟨c1, c2, c3, c4, c5, c6⟩, c7, c8⟩ := h
  have e := hm.size
  refine ⟨⟨?_, ?_, ?_, ?_, ?_, ?_⟩, by rw [e]; exact c7, ?_⟩
  all_goals first | rw [hm.topo] | skip
  all_goals first | rw [e] | skip
  all_goals assumption

theorem stackGrid_onBase {d : Ix} {axis : Fin 3} {mesh m : Surf ℝ GridTopo} (h : StackGrid d mesh)
    (hm : OnBase axis mesh m) : StackGrid d m := by
  obtain ⟨c1, c2, c3, c4, c5⟩ := h
  refine ⟨by rw [hm.topo]; exact c1, by rw [hm.size]; exact c2, by rw [hm.topo]; exact c3,
    by rw [hm.topo]; exact c4, by rw [hm.topo]; exact c5⟩

namespace Spec

/-- What a stack of the given surfaces, resolutions and groups is; `src ts i s` is the base cell from which the cell of layer
`s` over the base cell `i` takes its label, its ghost flag and the other cell arrays of the base. -/
def StackedMeshBy (src : List ℝ → (Fin 3 → ℕ) → ℕ → ℕ) (area : Arr3 (V3 ℝ) → List ℝ) (base : Dict String (DArr ℤ)) (ignore : List String) (dflt : String) (d : Fin 3 → ℕ) (axis : Fin 3)
    (codes : Option (List Int)) (table : Option (List (String × Int)))
    (args : List ((Resolution ℝ × Option String) × GroupArg)) (key : String) (surfs : List (List (Fin 3 → ℝ)))
    (M : SGrid ℝ ℤ) (tableM : List (String × Int)) : Prop :=
  ∃ subs names, subs.length = args.length ∧ names.length = args.length ∧
    (∀ (k : ℕ) a, args[k]? = some a → ∃ ts name, resolutionToPerc a.1.1 a.1.2 = .ok ts ∧ subs[k]? = some ts ∧
      names[k]? = some name ∧ Labels ignore dflt (count (cells d)) codes table a.2 name) ∧
    LayeredBy src area base key d axis surfs subs names M tableM

/-- The same with data taken from the base cell each cell lies over. -/
abbrev StackedMesh (area : Arr3 (V3 ℝ) → List ℝ) (base : Dict String (DArr ℤ)) (ignore : List String) (dflt : String) (d : Fin 3 → ℕ)
    (axis : Fin 3) (codes : Option (List Int)) (table : Option (List (String × Int)))
    (args : List ((Resolution ℝ × Option String) × GroupArg)) (key : String) (surfs : List (List (Fin 3 → ℝ)))
    (M : SGrid ℝ ℤ) (tableM : List (String × Int)) : Prop :=
  StackedMeshBy (fun _ i _ => vtkId (cells d) i) area base ignore dflt d axis codes table args key surfs M tableM

end Spec

/-- Another source that agrees on the cells of the mesh. -/
theorem Spec.LayeredBy.congr {src src' : List ℝ → Ix → ℕ → ℕ} {area : Arr3 (V3 ℝ) → List ℝ} {base : Dict String (DArr ℤ)} {key : String}
    {d : Ix} {axis : Fin 3} {surfs : List (List (V3 ℝ))} {subs : List (List ℝ)} {names : List (ℕ → String)}
    {M : SGrid ℝ ℤ} {table : List (String × Int)} (h : LayeredBy src area base key d axis surfs subs names M table)
    (e : ∀ ts ∈ subs, ∀ i s, InShape (cells d) i → s < ts.length - 1 → src ts i s = src' ts i s) :
    LayeredBy src' area base key d axis surfs subs names M table := by
  obtain ⟨h1, h2, h3, h4, h5, h6, h7, h8⟩ := h
  refine ⟨h1, h2, h3, ?_, h5, ?_, h7, ?_⟩
  · obtain ⟨l, c, it, g, a1, a2, a3, a4, a5, a6, a7⟩ := h4
    refine ⟨l, c, it, g, a1, a2, a3, a4, a5, a6, ?_⟩
    intro k ts name hk hn i s hi hs
    rw [← e ts (List.mem_of_getElem? hk) i s hi hs]
    exact a7 k ts name hk hn i s hi hs
  · intro μ hμ k ts hk i s hi hs
    rw [← e ts (List.mem_of_getElem? hk) i s hi hs]
    exact h6 μ hμ k ts hk i s hi hs
  · intro name v hv hname
    obtain ⟨w, w1, w2⟩ := h8 name v hv hname
    refine ⟨w, w1, ?_⟩
    intro k ts hk i s hi hs
    rw [← e ts (List.mem_of_getElem? hk) i s hi hs]
    exact w2 k ts hk i s hi hs

/-- The arguments of the items but the first one. -/
def itemArgs (adds : List (AddArg ℝ × Rest ℝ (Opts (Resolution ℝ × Option String)))) :
    List ((Resolution ℝ × Option String) × GroupArg) := adds.tail.map fun a => (a.2.opts.sub, a.2.opts.group)

theorem itemArgs_get {adds : List (AddArg ℝ × Rest ℝ (Opts (Resolution ℝ × Option String)))} {k : ℕ}
    {a : AddArg ℝ × Rest ℝ (Opts (Resolution ℝ × Option String))} (h : adds[k + 1]? = some a) :
    (itemArgs adds)[k]? = some (a.2.opts.sub, a.2.opts.group) := by
  simp [itemArgs, h]

theorem itemArgs_inv {adds : List (AddArg ℝ × Rest ℝ (Opts (Resolution ℝ × Option String)))} {k : ℕ}
    {x : (Resolution ℝ × Option String) × GroupArg} (h : (itemArgs adds)[k]? = some x) :
    ∃ a, adds[k + 1]? = some a ∧ x = (a.2.opts.sub, a.2.opts.group) := by
  simp only [itemArgs, List.getElem?_map, List.getElem?_tail] at h
  cases ha : adds[k + 1]? with
  | none => rw [ha] at h; cases h
  | some a => rw [ha] at h; simp only [Option.map_some, Option.some.injEq] at h; exact ⟨a, rfl, h.symm⟩

/-- **C96 (every axis).** A 2D stack on a line of `n` points, filled by any sequence of two or more `add` calls with
subdivisions that start at 0 and end at 1.  If the group arguments are names, masks or indices that fit, a mesh is
generated.  Any mesh that is generated is made of the surfaces of the items after the cut pass: its node (i, L) lies at
the given fraction between the two surfaces around layer L, all off-axis coordinates are those of the line; each cell carries
its item; it takes its label, ghost flag and column from the segment whose number is the position of the cell in the item
modulo the number of segments (`lineSource`), which is its own segment for the axes 1 and 2 (`C96_stack2d_partial`). -/
theorem C96_stack2d_by_position (area : Arr3 (V3 ℝ) → List ℝ) (harea : ∀ x, (area x).length = count (cells x.d))
    (ignore : List String) (dflt : String) (o : InterpOracle ℝ) (n : ℕ) (mesh : Surf ℝ LineTopo)
    (hmesh : StackLine n mesh) (axis : Fin 3) (bottomUp : Bool)
    (adds : List (AddArg ℝ × Rest ℝ (Opts (Resolution ℝ × Option String)))) (hadds : 2 ≤ adds.length)
    (hres : ∀ x ∈ itemArgs adds, ∃ ts, resolutionToPerc x.1.1 x.1.2 = .ok ts ∧ fromZeroToOne ts)
    (s : Stack ℝ LineTopo (Opts (Resolution ℝ × Option String)))
    (hs : (Stack.new mesh axis bottomUp).run o (adds.map addCall) = .ok s) :
    ((∀ x ∈ itemArgs adds, Acceptable (n - 1) x.2) → ∃ R, stack2D area ignore dflt s = .ok R) ∧
    ∀ M table s', stack2D area ignore dflt s = .ok ((M, table), s') →
      s'.items.length = adds.length ∧ (∀ it ∈ s'.items, OnBase axis mesh it.mesh) ∧
      StackedMeshBy (lineSource (planeShape (stackPlane axis) n 1) axis) area mesh.topo.cellData ignore dflt
        (planeShape (stackPlane axis) n 1) axis (groupCodes mesh.topo.cellData) mesh.topo.table (itemArgs adds) "StackItem" (s'.items.map fun it => it.mesh.points) M table := by
  have hn2 : 2 ≤ n := by rw [← hmesh.size]; exact hmesh.clean.size
  have hcell1 : cells (planeShape (stackPlane axis) n 1) = planeShape (stackPlane axis) (n - 1) 1 := by
    funext ax
    fin_cases axis <;> fin_cases ax <;> simp [stackPlane, planeShape, lineAxis, subdivisionAxis, cells] <;> omega
  have hcount : count (cells (planeShape (stackPlane axis) n 1)) = n - 1 := by
    rw [hcell1, count_planeShape (stackPlane_is axis), Nat.mul_one]
  have hres' : ∀ (k : ℕ) a, adds[k + 1]? = some a → ∃ ts, resolutionToPerc a.2.opts.sub.1 a.2.opts.sub.2 = .ok ts ∧
      fromZeroToOne ts := fun k a ha =>
    hres _ (List.mem_of_getElem? (itemArgs_get ha))
  have hax : s.axis = axis := (run_adds adds _ s hs rfl (by simp [Stack.new])).2.1
  obtain ⟨h1, h2⟩ := stack_layered (area := area) (base := mesh.topo.cellData)
    (lineKit fun a b (r : Resolution ℝ × Option String) => generateSurface area a b (stackPlane axis) r.1 r.2)
    (ignore := ignore) (dflt := dflt) (d := planeShape (stackPlane axis) n 1) (axis := axis)
    (stackPlane_one axis n)
    (by intro ax; fin_cases axis <;> fin_cases ax <;> simp [stackPlane, planeShape, lineAxis, subdivisionAxis] <;> omega)
    (src := lineSource (planeShape (stackPlane axis) n 1) axis)
    (by intro ts i s _ _; exact Nat.mod_lt _ (by rw [hcount]; omega))
    percOf o mesh bottomUp adds hadds
    (by rw [count_planeShape (stackPlane_is axis), hmesh.size, Nat.mul_one])
    (by intro m hm; simp only [lineKit, hm.size, hm.topo])
    (by simp only [lineKit]; rw [hcount, hmesh.size])
    (by
      intro x hx
      simp only [lineKit, groupCodes, Option.map_eq_some_iff] at hx
      obtain ⟨g, hg, rfl⟩ := hx
      rw [hcount, ← hmesh.size]
      exact hmesh.clean.cdLen _ (Dict.get?_mem hg))
    (by
      intro k a ha
      obtain ⟨ts, t1, t2⟩ := hres' k a ha
      rw [percOf_ok t1]
      exact t2)
    (by
      intro x y hx hy k a ha arr harr
      obtain ⟨ts, t1, t2⟩ := hres' k a ha
      rw [percOf_ok t1]
      rw [hcount] at harr
      have hX := stackLine_onBase hmesh hx
      have hY := stackLine_onBase hmesh hy
      obtain ⟨p, hp, hb⟩ := line_between harea hX hY (axis := axis) harr t2.1
      rw [hx.topo] at hb
      refine ⟨p, ?_, hb⟩
      have e1 : (lineArg ⟨x.points, { x.topo with
          cellData := Dict.set x.topo.cellData "CellGroup" ⟨false, arr⟩ }⟩).points = x.points :=
        (withGroup_clean hX harr).1.points_eq
      have e2 : (lineArg y).points = y.points := hY.clean.points_eq
      simp only [lineKit, generateSurface]
      rw [if_neg (by rw [e1, e2, hX.size, hY.size]; simp), t1]
      exact hp)
    s hs
  simp only [stack2D, hax]
  rw [hcount] at h1
  constructor
  · intro hacc
    obtain ⟨M, table, s', h⟩ := h1 (fun k a ha => hacc _ (List.mem_of_getElem? (itemArgs_get ha)))
    exact ⟨_, h⟩
  · intro M table s' h
    obtain ⟨e1, e2, subs, names, e3, e4, e5, e6⟩ := h2 M table s' h
    refine ⟨e1, e2, subs, names, by simp [itemArgs]; omega, by simp [itemArgs]; omega, ?_, e6⟩
    intro k x hx
    obtain ⟨a, ha, rfl⟩ := itemArgs_inv hx
    obtain ⟨name, f1, f2, f3⟩ := e5 k a ha
    obtain ⟨ts, t1, _⟩ := hres' k a ha
    rw [percOf_ok t1] at f1
    exact ⟨ts, name, t1, f1, f2, f3⟩

theorem planeShape_pos (axis : Fin 3) {n : ℕ} (hn : 1 ≤ n) (ax : Fin 3) : 1 ≤ planeShape (stackPlane axis) n 1 ax := by
  fin_cases axis <;> fin_cases ax <;> simp [stackPlane, planeShape, lineAxis, subdivisionAxis] <;> omega

/-- When the data of a surface between lines come from the own segment of each cell. -/
theorem lineSource_own {n : ℕ} {mesh : Surf ℝ LineTopo} (hmesh : StackLine n mesh) {axis : Fin 3} {ts : List ℝ}
    (hts : 2 ≤ ts.length) (hok : axis ≠ 0 ∨ ts.length = 2 ∨ n = 2) {i : Ix} {s : ℕ}
    (hi : InShape (cells (planeShape (stackPlane axis) n 1)) i) (hs : s < ts.length - 1) :
    lineSource (planeShape (stackPlane axis) n 1) axis ts i s = vtkId (cells (planeShape (stackPlane axis) n 1)) i := by
  have hn2 : 2 ≤ n := by rw [← hmesh.size]; exact hmesh.clean.size
  have hcell1 : cells (planeShape (stackPlane axis) n 1) = planeShape (stackPlane axis) (n - 1) 1 := by
    funext ax
    fin_cases axis <;> fin_cases ax <;> simp [stackPlane, planeShape, lineAxis, subdivisionAxis, cells] <;> omega
  have hcount : count (cells (planeShape (stackPlane axis) n 1)) = n - 1 := by
    rw [hcell1, count_planeShape (stackPlane_is axis), Nat.mul_one]
  refine (slabId_layerMajor (stackPlane_one axis n) (planeShape_pos axis (by omega)) hts ?_ hi hs).2
  rcases hok with h | h | h
  · fin_cases axis
    · exact absurd rfl h
    · exact .inr (.inl ⟨rfl, by simp [stackPlane, planeShape, lineAxis, subdivisionAxis]⟩)
    · exact .inl rfl
  · exact .inr (.inr (.inr h))
  · exact .inr (.inr (.inl (by rw [hcount, h])))

theorem stacked_own {n : ℕ} {mesh : Surf ℝ LineTopo} (hmesh : StackLine n mesh) {axis : Fin 3}
    {area : Arr3 (V3 ℝ) → List ℝ} {base : Dict String (DArr ℤ)} {ignore : List String} {dflt : String}
    {codes : Option (List Int)} {tbl : Option (List (String × Int))}
    {args : List ((Resolution ℝ × Option String) × GroupArg)} {key : String} {surfs : List (List (Fin 3 → ℝ))}
    {M : SGrid ℝ ℤ} {table : List (String × Int)}
    (hres : ∀ x ∈ args, ∃ ts, resolutionToPerc x.1.1 x.1.2 = .ok ts ∧ fromZeroToOne ts ∧
      (axis ≠ 0 ∨ ts.length = 2 ∨ n = 2))
    (h : StackedMeshBy (lineSource (planeShape (stackPlane axis) n 1) axis) area base ignore dflt
      (planeShape (stackPlane axis) n 1) axis codes tbl args key surfs M table) :
    StackedMesh area base ignore dflt (planeShape (stackPlane axis) n 1) axis codes tbl args key surfs M table := by
  obtain ⟨subs, names, e3, e4, e5, e6⟩ := h
  refine ⟨subs, names, e3, e4, e5, e6.congr ?_⟩
  intro ts hts i s hi hs
  obtain ⟨k, hk⟩ := List.getElem?_of_mem hts
  have hk' : k < args.length := by rw [← e3]; exact (List.getElem?_eq_some_iff.1 hk).1
  obtain ⟨ts', _, t1, t2, _⟩ := e5 k _ (List.getElem?_eq_getElem hk')
  rw [hk] at t2; cases t2
  obtain ⟨ts', r1, r2, r3⟩ := hres _ (List.getElem_mem hk')
  rw [t1] at r1
  obtain rfl := Except.ok.inj r1
  exact lineSource_own hmesh r2.1 r3 hi hs

/-- **C96 (partial).** A 2D stack on a line of `n` points, filled by any sequence of two or more `add` calls with
subdivisions that start at 0 and end at 1.  If the group arguments are names, masks or indices that fit, a mesh is
generated.  Any mesh that is generated is made of the surfaces of the items after the cut pass: its node (i, L) lies at
the given fraction between the two surfaces around layer L, all off-axis coordinates are those of the line; each cell
carries its layer, its segment of the line, its item, and a group code that stands for the label its segment has by the
group argument of its item; the table is dense and has no unused entry.
Missing: stacking axis 0 with several segments and several sublayers (`C96_labels_iff`), transitions (C104), vector data on
the cells of the line. -/
theorem C96_stack2d_partial (area : Arr3 (V3 ℝ) → List ℝ) (harea : ∀ x, (area x).length = count (cells x.d))
    (ignore : List String) (dflt : String) (o : InterpOracle ℝ) (n : ℕ) (mesh : Surf ℝ LineTopo)
    (hmesh : StackLine n mesh) (axis : Fin 3) (bottomUp : Bool)
    (adds : List (AddArg ℝ × Rest ℝ (Opts (Resolution ℝ × Option String)))) (hadds : 2 ≤ adds.length)
    (hres : ∀ x ∈ itemArgs adds, ∃ ts, resolutionToPerc x.1.1 x.1.2 = .ok ts ∧ fromZeroToOne ts ∧
      (axis ≠ 0 ∨ ts.length = 2 ∨ n = 2))
    (s : Stack ℝ LineTopo (Opts (Resolution ℝ × Option String)))
    (hs : (Stack.new mesh axis bottomUp).run o (adds.map addCall) = .ok s) :
    ((∀ x ∈ itemArgs adds, Acceptable (n - 1) x.2) → ∃ R, stack2D area ignore dflt s = .ok R) ∧
    ∀ M table s', stack2D area ignore dflt s = .ok ((M, table), s') →
      s'.items.length = adds.length ∧ (∀ it ∈ s'.items, OnBase axis mesh it.mesh) ∧
      StackedMesh area mesh.topo.cellData ignore dflt (planeShape (stackPlane axis) n 1) axis (groupCodes mesh.topo.cellData)
        mesh.topo.table (itemArgs adds) "StackItem" (s'.items.map fun it => it.mesh.points) M table := by
  obtain ⟨g1, g2⟩ := C96_stack2d_by_position area harea ignore dflt o n mesh hmesh axis bottomUp adds hadds
    (fun x hx => by obtain ⟨ts, t1, t2, _⟩ := hres x hx; exact ⟨ts, t1, t2⟩) s hs
  refine ⟨g1, fun M table s' h => ?_⟩
  obtain ⟨e1, e2, e3⟩ := g2 M table s' h
  exact ⟨e1, e2, stacked_own hmesh hres e3⟩

/-- **C97 (partial).** The same for a 3D stack on a structured surface that is flat along the stacking axis (all
others are refused by the constructor, `C100_stack3d`).
Missing: the layer and column of the cells for stacking axes 0 and 1 with several cells and several sublayers, where they
are wrong (`C97_axis0_refuted`, `C98_labels_iff`), vector data on the cells (`C134_vector_stack3d_refuted`; unstructured surfaces: `C97_unstructured_partial`). -/
theorem C97_stack3d_partial (volume : Arr3 (V3 ℝ) → List ℝ) (hvol : ∀ x, (volume x).length = count (cells x.d))
    (ignore : List String) (dflt : String) (o : InterpOracle ℝ) (d : Fin 3 → ℕ) (mesh : Surf ℝ GridTopo)
    (hmesh : StackGrid d mesh) (axis : Fin 3) (hd : FlatAlong d axis) (bottomUp : Bool)
    (adds : List (AddArg ℝ × Rest ℝ (Opts (Resolution ℝ × Option String)))) (hadds : 2 ≤ adds.length)
    (hres : ∀ x ∈ itemArgs adds, ∃ ts, resolutionToPerc x.1.1 x.1.2 = .ok ts ∧ fromZeroToOne ts)
    (s : Stack ℝ GridTopo (Opts (Resolution ℝ × Option String)))
    (hs : (Stack.new mesh axis bottomUp).run o (adds.map addCall) = .ok s) :
    ((∀ x ∈ itemArgs adds, Acceptable (count (cells d)) x.2) → ∃ R, stack3D volume ignore dflt s = .ok R) ∧
    ∀ M table s', stack3D volume ignore dflt s = .ok ((M, table), s') →
      s'.items.length = adds.length ∧ (∀ it ∈ s'.items, OnBase axis mesh it.mesh) ∧
      StackedMesh volume mesh.topo.cellData ignore dflt d axis (groupCodes mesh.topo.cellData)
        mesh.topo.table (itemArgs adds) "StackItem" (s'.items.map fun it => it.mesh.points) M table := by
  have hres' : ∀ (k : ℕ) a, adds[k + 1]? = some a → ∃ ts, resolutionToPerc a.2.opts.sub.1 a.2.opts.sub.2 = .ok ts ∧
      fromZeroToOne ts := fun k a ha =>
    hres _ (List.mem_of_getElem? (itemArgs_get ha))
  obtain ⟨h1, h2⟩ := stack_layered (area := volume) (base := mesh.topo.cellData)
    (gridKit fun a b (r : Resolution ℝ × Option String) => generateVolumeS volume a b r.1 r.2)
    (ignore := ignore) (dflt := dflt) (d := d) (axis := axis) hd.1
    (by
      intro ax
      by_cases hax : ax = axis
      · rw [hax, hd.1]
      · have := hd.2 ax hax; omega)
    (src := fun _ i _ => vtkId (cells d) i) (fun _ i _ hi _ => vtkId_lt hi)
    percOf o mesh bottomUp adds hadds hmesh.size
    (by intro m hm; simp only [gridKit, hm.topo])
    (by simp only [gridKit, hmesh.dims, sizeOfShape_eq, cellShape_eq])
    (by
      intro x hx
      simp only [gridKit, groupCodes, Option.map_eq_some_iff] at hx
      obtain ⟨g, hg, rfl⟩ := hx
      exact hmesh.cd.1 _ (Dict.get?_mem hg))
    (by
      intro k a ha
      obtain ⟨ts, t1, t2⟩ := hres' k a ha
      rw [percOf_ok t1]
      exact t2)
    (by
      intro x y hx hy k a ha arr harr
      obtain ⟨ts, t1, t2⟩ := hres' k a ha
      rw [percOf_ok t1]
      have hX := stackGrid_onBase hmesh hx
      have hY := stackGrid_onBase hmesh hy
      obtain ⟨p, hp, hb⟩ := grid_between hvol hd hX hY harr t2.1
      refine ⟨p, ?_, hx.topo ▸ hb⟩
      simp only [gridKit, generateVolumeS]
      rw [if_neg (by simp [surfGrid, hX.dims, hY.dims]),
        if_neg (by simp [surfGrid, hX.dims, (flatAxis_eq hd).2]), t1]
      exact hp)
    s hs
  constructor
  · intro hacc
    obtain ⟨M, table, s', h⟩ := h1 (fun k a ha => hacc _ (List.mem_of_getElem? (itemArgs_get ha)))
    exact ⟨_, h⟩
  · intro M table s' h
    obtain ⟨e1, e2, subs, names, e3, e4, e5, e6⟩ := h2 M table s' h
    refine ⟨e1, e2, subs, names, by simp [itemArgs]; omega, by simp [itemArgs]; omega, ?_, e6⟩
    intro k x hx
    obtain ⟨a, ha, rfl⟩ := itemArgs_inv hx
    obtain ⟨name, f1, f2, f3⟩ := e5 k a ha
    obtain ⟨ts, t1, _⟩ := hres' k a ha
    rw [percOf_ok t1] at f1
    exact ⟨ts, name, t1, f1, f2, f3⟩

/-! ### extrusions -/

theorem run_extr {K τ ω : Type _} [Field K] [LinearOrder K] {rot : V3 K → K → V3 K → V3 K → V3 K} {mesh : Surf K τ} :
    ∀ (args : List (ExtrArgs K ω)) (e e' : Extr K τ ω), e.run rot args = .ok e' →
    (∀ it ∈ e.items, it.1.topo = mesh.topo ∧ it.1.points.length = mesh.points.length) →
    (∀ it ∈ e'.items, it.1.topo = mesh.topo ∧ it.1.points.length = mesh.points.length) ∧
      ∃ new, e'.items = e.items ++ new ∧ new.length = args.length ∧
        ∀ (k : ℕ) it a, new[k]? = some it → args[k]? = some a → it.2 = some a.opts := by
  intro args
  induction args with
  | nil =>
    intro e e' h he
    simp only [Extr.run, Except.ok.injEq] at h
    subst h
    exact ⟨he, [], by simp, rfl, by simp⟩
  | cons a args ih =>
    intro e e' h he
    simp only [Extr.run] at h
    split at h
    · cases h
    rename_i e1 hadd
    have key : ∃ m, e1.items = e.items ++ [(m, some a.opts)] ∧ m.topo = mesh.topo ∧
        m.points.length = mesh.points.length := by
      simp only [Extr.add] at hadd
      split at hadd
      · cases hadd
      split at hadd
      · split at hadd
        · cases hadd
        rename_i m w hl
        obtain ⟨t1, t2⟩ := he _ (List.mem_of_getLast? hl)
        simp only at t1 t2
        cases hadd
        refine ⟨_, rfl, t1, ?_⟩
        cases a.angle.or e.angle <;> cases a.scale.or e.scale <;> simp [scalePoints, t2]
      · cases hadd
    obtain ⟨m, k1, k2, k3⟩ := key
    obtain ⟨f1, new, f2, f3, f4⟩ := ih e1 e' h (by
      rw [k1]
      intro it hit
      rcases List.mem_append.1 hit with hit | hit
      · exact he it hit
      · rw [List.mem_singleton] at hit; subst hit; exact ⟨k2, k3⟩)
    refine ⟨f1, (m, some a.opts) :: new, by rw [f2, k1]; simp, by simp [f3], ?_⟩
    intro k it b hit hb
    cases k with
    | zero => simp at hit hb; subst hit hb; rfl
    | succ k => exact f4 k it b (by simpa using hit) (by simpa using hb)

theorem firstOne_flat {d : Ix} {axis : Fin 3} (h : FlatAlong d axis) : firstOne d = .ok axis := by
  obtain ⟨h1, h2⟩ := h
  have e0 := h2 0; have e1 := h2 1
  fin_cases axis
  · change d 0 = 1 at h1
    simp only [firstOne]; rw [if_pos h1]; rfl
  · change d 1 = 1 at h1
    simp only [firstOne]
    rw [if_neg (by have := e0 (by decide); omega), if_pos h1]; rfl
  · change d 2 = 1 at h1
    simp only [firstOne]
    rw [if_neg (by have := e0 (by decide); omega), if_neg (by have := e1 (by decide); omega), if_pos h1]; rfl

/-- **C98 (partial).** `MeshExtrude` on a structured surface that is flat along some index axis, filled by any
sequence of `add` calls (vectors, scales, rotations) with subdivisions from 0 to 1.  If the group arguments fit, a mesh
is generated; any generated mesh is made of the surfaces of the items as in C96, with "ExtrudeItem".
Missing: the layer and column of the cells for flat axes 0 and 1 with several cells and several sublayers, where they are
wrong (`C98_flat_axis0_refuted`, `C98_labels_iff`), vector data on the cells (`C134_vector_extrude_refuted`; unstructured surfaces: `C98_unstructured_partial`). -/
theorem C98_extrude_partial (volume : Arr3 (V3 ℝ) → List ℝ) (hvol : ∀ x, (volume x).length = count (cells x.d))
    (rot : V3 ℝ → ℝ → V3 ℝ → V3 ℝ → V3 ℝ) (ignore : List String) (dflt : String) (d : Fin 3 → ℕ)
    (mesh : Surf ℝ GridTopo) (hmesh : StackGrid d mesh) (axis : Fin 3) (hd : FlatAlong d axis)
    (scale angle : Option ℝ) (args : List (ExtrArgs ℝ (Opts (Resolution ℝ × Option String)))) (hargs : args ≠ [])
    (hres : ∀ x ∈ args, ∃ ts, resolutionToPerc x.opts.sub.1 x.opts.sub.2 = .ok ts ∧ fromZeroToOne ts)
    (e : Extr ℝ GridTopo (Opts (Resolution ℝ × Option String)))
    (he : (Extr.new mesh scale angle).run rot args = .ok e) :
    ((∀ x ∈ args, Acceptable (count (cells d)) x.opts.group) → ∃ R, extrudeS volume ignore dflt e = .ok R) ∧
    ∀ M table, extrudeS volume ignore dflt e = .ok (M, table) →
      StackedMesh volume mesh.topo.cellData ignore dflt d axis (groupCodes mesh.topo.cellData) mesh.topo.table
        (args.map fun x => (x.opts.sub, x.opts.group)) "ExtrudeItem" (e.items.map fun it => it.1.points) M table := by
  obtain ⟨h1, new, h2, h3, h4⟩ := run_extr (mesh := mesh) args _ e he (by simp [Extr.new])
  simp only [Extr.new, List.singleton_append] at h2
  obtain ⟨y, l, hy⟩ : ∃ y l, new = y :: l := by
    cases new with
    | nil => cases args with
      | nil => exact absurd rfl hargs
      | cons _ _ => simp at h3
    | cons y l => exact ⟨y, l, rfl⟩
  rw [hy] at h2 h3 h4
  have hgrid : ∀ it ∈ (mesh, none) :: y :: l, StackGrid d it.1 := by
    intro it hit
    rw [← h2] at hit
    obtain ⟨t1, t2⟩ := h1 it hit
    exact ⟨by rw [t1]; exact hmesh.dims, by rw [t2]; exact hmesh.size, by rw [t1]; exact hmesh.pd,
      by rw [t1]; exact hmesh.cd, by rw [t1]; exact hmesh.scalar⟩
  set kit : Kit ℝ GridTopo (Resolution ℝ × Option String) :=
    gridKit fun a b r => generateVolumeS volume a b r.1 r.2 with hkit
  have hlab : ∀ it ∈ (mesh, none) :: y :: l, kit.labels it.1 = kit.labels mesh := by
    intro it hit
    rw [← h2] at hit
    simp only [hkit, gridKit, (h1 it hit).1]
  have hcells : (kit.labels mesh).nCells = count (cells d) := by
    simp only [hkit, gridKit, hmesh.dims, sizeOfShape_eq, cellShape_eq]
  have hopt : ∀ (k : ℕ) it, (y :: l)[k]? = some it → ∃ a, args[k]? = some a ∧ a ∈ args ∧ it.2 = some a.opts := by
    intro k it hk
    have hk' : k < args.length := by rw [← h3]; exact (List.getElem?_eq_some_iff.1 hk).1
    exact ⟨_, List.getElem?_eq_getElem hk', List.getElem_mem _, h4 k it _ hk (List.getElem?_eq_getElem hk')⟩
  have hpos : ∀ ax, 1 ≤ d ax := by
    intro ax
    by_cases hax : ax = axis
    · rw [hax, hd.1]
    · have := hd.2 ax hax; omega
  have hsurf : ∀ it ∈ (mesh, none) :: y :: l, it.1.points.length = count d ∧
      (kit.labels it.1).nCells = count (cells d) ∧
      ∀ x, (kit.labels it.1).cellGroup = some x → x.length = (kit.labels it.1).nCells := by
    intro it hit
    refine ⟨(hgrid it hit).size, by rw [hlab it hit, hcells], ?_⟩
    rw [hlab it hit, hcells]
    intro x hx
    simp only [hkit, gridKit, groupCodes, Option.map_eq_some_iff] at hx
    obtain ⟨g, hg, rfl⟩ := hx
    exact hmesh.cd.1 _ (Dict.get?_mem hg)
  have hext : ∀ (k : ℕ) x z o arr, ((mesh, none) :: y :: l)[k]? = some x → (y :: l)[k]? = some z → z.2 = some o →
      arr.length = count (cells d) → ∃ p, kit.extrude (kit.withGroup x.1 arr) z.1 o.sub = .ok p ∧
        Between volume mesh.topo.cellData d axis x.1.points z.1.points (percOf o.sub) arr p := by
    intro k x z o arr hx hz ho harr
    obtain ⟨a, _, ha, hao⟩ := hopt k z hz
    rw [ho] at hao; cases hao
    obtain ⟨ts, t1, t2⟩ := hres a ha
    rw [percOf_ok t1]
    have hX := hgrid x (List.mem_of_getElem? hx)
    have hY := hgrid z (List.mem_cons_of_mem _ (List.mem_of_getElem? hz))
    obtain ⟨p, hp, hb⟩ := grid_between hvol hd hX hY harr t2.1
    rw [(h1 x (by rw [h2]; exact List.mem_of_getElem? hx)).1] at hb
    refine ⟨p, ?_, hb⟩
    simp only [hkit, gridKit, generateVolumeS]
    rw [if_neg (by simp [surfGrid, hX.dims, hY.dims]),
      if_neg (by simp [surfGrid, hX.dims, (flatAxis_eq hd).2]), t1]
    exact hp
  have hts : ∀ it ∈ y :: l, ∀ o, it.2 = some o →
      fromZeroToOne (percOf o.sub) := by
    intro it hit o ho
    obtain ⟨k, hk⟩ := List.getElem?_of_mem hit
    obtain ⟨a, _, ha, hao⟩ := hopt k it hk
    rw [ho] at hao; cases hao
    obtain ⟨ts, t1, t2⟩ := hres a ha
    rw [percOf_ok t1]
    exact t2
  obtain ⟨g1, g2⟩ := assemble_ok kit (ignore := ignore) (dflt := dflt) (key := "ExtrudeItem")
    ⟨by decide, by decide, by decide, by decide⟩ hd.1 hpos
    (src := fun _ i _ => vtkId (cells d) i) (fun _ i _ hi _ => vtkId_lt hi) percOf (mesh, none) y l hsurf hts
    (by
      intro k p q oo arr m hp hq hoo harr hm
      obtain ⟨m', hm', hbt⟩ := hext k p q oo arr hp hq hoo harr
      rw [hm] at hm'; cases hm'
      exact hbt)
  have hrun : extrudeS volume ignore dflt e = assemble kit ignore dflt "ExtrudeItem" axis ((mesh, none) :: y :: l) := by
    simp only [extrudeS, h2]
    rw [hmesh.dims, firstOne_flat hd]
  rw [hrun]
  constructor
  · intro hacc
    obtain ⟨r, hr⟩ := submeshes_total kit (ignore := ignore) (dflt := dflt) (key := "ExtrudeItem")
      ⟨by decide, by decide⟩ hd.1 hpos percOf (y :: l) (mesh, none) [] 0 0 (fun it hit => (hsurf it hit).2)
      (by
        intro it hit
        obtain ⟨k, hk⟩ := List.getElem?_of_mem hit
        obtain ⟨a, _, ha, hao⟩ := hopt k it hk
        exact ⟨_, hao, (hts it hit _ hao).1, hacc a ha⟩)
      hext ⟨by simp, by simp⟩
    obtain ⟨M, table, h⟩ := g1 r.1 r.2 hr
    exact ⟨_, h⟩
  · intro M table h
    obtain ⟨subs, names, n1, n2, n3, n4⟩ := g2 M table h
    simp only [List.length_cons] at h3
    refine ⟨subs, names, by simp; omega, by simp; omega, ?_, ?_⟩
    · intro k x hx
      rw [List.getElem?_map] at hx
      cases ha : args[k]? with
      | none => rw [ha] at hx; cases hx
      | some a =>
        rw [ha] at hx
        simp only [Option.map_some, Option.some.injEq] at hx
        subst hx
        have hk : k < (y :: l).length := by
          have := (List.getElem?_eq_some_iff.1 ha).1; simp only [List.length_cons]; omega
        have hk2 : k < (((mesh, none) : Surf ℝ GridTopo × Option (Opts (Resolution ℝ × Option String))) :: y :: l).length := by
          simp only [List.length_cons] at hk ⊢; omega
        obtain ⟨oo, nm, m1, m2, m3, m4⟩ := n3 k _ _ (List.getElem?_eq_getElem hk2) (List.getElem?_eq_getElem hk)
        have := h4 k _ a (List.getElem?_eq_getElem hk) ha
        rw [m1] at this; cases this
        obtain ⟨ts, t1, _⟩ := hres a (List.mem_of_getElem? ha)
        rw [percOf_ok t1] at m2
        rw [hlab _ (List.getElem_mem hk2)] at m4
        exact ⟨ts, nm, t1, m2, m3, m4⟩
    · rw [h2]; exact n4

/-! ### concrete cases -/

/-- A line of three points along x, in two cells of groups "A" and "B". -/
def lineX (K : Type _) [Field K] : Surf K LineTopo :=
  ⟨[![0, 0, 0], ![1, 0, 0], ![2, 0, 0]], [0, 1, 2], [], [("CellGroup", ⟨false, [0, 1]⟩)], some [("A", 0), ("B", 1)]⟩

/-- A structured surface of 3 x 2 nodes in the xy-plane. -/
def squareXY (K : Type _) [Field K] : Surf K GridTopo :=
  ⟨[![0, 0, 0], ![1, 0, 0], ![2, 0, 0], ![0, 1, 0], ![1, 1, 0], ![2, 1, 0]], ![3, 2, 1], [],
    [("CellGroup", ⟨false, [0, 1]⟩)], some [("A", 0), ("B", 1)]⟩

theorem lineX_ok : StackLine 3 (lineX ℝ) := by
  refine ⟨⟨rfl, by simp [lineX], by simp [lineX], by simp [lineX], by simp [lineX], by simp [lineX]⟩, rfl, by simp [lineX]⟩

theorem squareXY_ok : StackGrid ![3, 2, 1] (squareXY ℝ) := by
  refine ⟨rfl, rfl, by simp [squareXY, Arrays], ⟨?_, by simp [squareXY]⟩, by simp [squareXY]⟩
  intro kv hkv
  simp only [squareXY, List.mem_singleton] at hkv
  subst hkv
  rfl

/-- The arguments: a plane at height 0, then one layer of two sublayers, then one of three, with a group. -/
def someAdds : List (AddArg ℝ × Rest ℝ (Opts (Resolution ℝ × Option String))) :=
  [(.scalar 0, ⟨none, ⟨(.int 1, none), .none⟩, 0, 0⟩), (.scalar 5, ⟨none, ⟨(.int 2, none), .none⟩, 0, 0⟩),
    (.scalar 7, ⟨none, ⟨(.int 3, some "log"), .dict [("C", .mask [true, false])]⟩, 0, 0⟩)]

theorem someAdds_res : ∀ x ∈ itemArgs someAdds, ∃ ts, resolutionToPerc x.1.1 x.1.2 = .ok ts ∧ fromZeroToOne ts := by
  have key : ∀ (r : ℤ) m, Supported m → ∃ ts, resolutionToPerc (.int r) m = .ok ts ∧ fromZeroToOne ts := by
    intro r m hm
    obtain ⟨p, h1, h2, _⟩ := C11_integer_resolution r m hm
    refine ⟨p, h1, ?_, h2.first, ?_⟩
    · rw [h2.size]; omega
    · rw [h2.size]; exact h2.last
  intro x hx
  simp only [itemArgs, someAdds, List.tail_cons, List.map_cons, List.map_nil, List.mem_cons, List.not_mem_nil,
    or_false] at hx
  rcases hx with rfl | rfl
  · exact key 2 none (.inl rfl)
  · exact key 3 (some "log") (.inr (.inl rfl))

/-- Concrete case of C96: the stack on the line is generated, along every axis and in both directions. -/
example (area : Arr3 (V3 ℝ) → List ℝ) (harea : ∀ x, (area x).length = count (cells x.d)) (o : InterpOracle ℝ)
    (axis : Fin 3) (bottomUp : Bool) :
    ∃ s R, (Stack.new (lineX ℝ) axis bottomUp).run o (someAdds.map addCall) = .ok s ∧ stack2D area [] "default" s = .ok R := by
  obtain ⟨s, hs, _⟩ := C26_scalar_heights (ω := Opts (Resolution ℝ × Option String)) o (lineX ℝ) axis bottomUp
    0 ⟨none, ⟨(.int 1, none), .none⟩, 0, 0⟩
    [(5, ⟨none, ⟨(.int 2, none), .none⟩, 0, 0⟩),
      (7, ⟨none, ⟨(.int 3, some "log"), .dict [("C", .mask [true, false])]⟩, 0, 0⟩)]
  obtain ⟨R, hR⟩ := (C96_stack2d_by_position area harea [] "default" o 3 (lineX ℝ) lineX_ok axis bottomUp someAdds
    (by decide) someAdds_res s hs).1
    (by
      intro x hx
      simp only [itemArgs, someAdds, List.tail_cons, List.map_cons, List.map_nil, List.mem_cons, List.not_mem_nil,
        or_false] at hx
      rcases hx with rfl | rfl
      · simp [Acceptable, entries]
      · simp [Acceptable, entries, Fits])
  exact ⟨s, R, hs, hR⟩

/-- Concrete case of C97: the stack on the square, along z, is generated. -/
theorem squareXY_stack (volume : Arr3 (V3 ℝ) → List ℝ) (hvol : ∀ x, (volume x).length = count (cells x.d)) (o : InterpOracle ℝ) :
    ∃ s R, (Stack.new (squareXY ℝ) 2 false).run o (someAdds.map addCall) = .ok s ∧
      stack3D volume [] "default" s = .ok R := by
  obtain ⟨s, hs, _⟩ := C26_scalar_heights (ω := Opts (Resolution ℝ × Option String)) o (squareXY ℝ) 2 false
    0 ⟨none, ⟨(.int 1, none), .none⟩, 0, 0⟩
    [(5, ⟨none, ⟨(.int 2, none), .none⟩, 0, 0⟩),
      (7, ⟨none, ⟨(.int 3, some "log"), .dict [("C", .mask [true, false])]⟩, 0, 0⟩)]
  obtain ⟨R, hR⟩ := (C97_stack3d_partial volume hvol [] "default" o ![3, 2, 1] (squareXY ℝ) squareXY_ok 2
    ⟨rfl, by decide⟩ false someAdds (by decide)
    (fun x hx => by
      obtain ⟨ts, h1, h2⟩ := someAdds_res x hx
      exact ⟨ts, h1, h2⟩) s hs).1
    (by
      intro x hx
      simp only [itemArgs, someAdds, List.tail_cons, List.map_cons, List.map_nil, List.mem_cons, List.not_mem_nil,
        or_false] at hx
      rcases hx with rfl | rfl
      · simp [Acceptable, entries]
      · intro kv hkv
        simp only [entries, List.mem_singleton] at hkv
        subst hkv
        rfl)
  exact ⟨s, R, hs, hR⟩

/-- Cells of rational grids have size 1. -/
def unitCells (x : Arr3 (V3 ℚ)) : List ℚ := List.replicate (count (cells x.d)) 1

/-- No interpolation. -/
def noInterp : InterpOracle ℚ := ⟨fun _ _ => .error .valueError, fun _ _ _ => 0⟩

/-- A stack of scalar items given by height, positions and group, generated. -/
def stackRun {τ : Type _} (kit : Kit ℚ τ (List ℚ)) (mesh : Surf ℚ τ) (axis : Fin 3)
    (l : List (ℚ × List ℚ × GroupArg)) : Py (SGrid ℚ ℤ × Dict String Int) :=
  match (Stack.new mesh axis true).run noInterp (l.map fun x => scalarCall (x.1, ⟨none, ⟨x.2.1, x.2.2⟩, 0, 0⟩)) with
  | .error e => .error e
  | .ok s =>
    match s.generateMesh kit [] "default" with
    | .error e => .error e
    | .ok r => .ok r.1

/-- The line along y of three points. -/
def lineY : Surf ℚ LineTopo := ⟨[![0, 0, 0], ![0, 1, 0], ![0, 2, 0]], [0, 1, 2], [], [], none⟩

/-- **C96 (refuted).** Stacking along axis 0: two segments and one item with two sublayers and group "A" on the first
segment.  The cell of the first segment in the second sublayer is labelled layer 0, column 1 and "default". -/
theorem C96_axis0_refuted :
    ∃ M table layers columns groups, stackRun (lineKit fun a b ts => generateSurfaceCore unitCells a b (stackPlane 0) ts)
        lineY 0 [(0, [0, 1], .none), (2, [0, 1/2, 1], .dict [("A", .mask [true, false])])] = .ok (M, table) ∧
      M.nodes.d = planeShape "yx" 3 3 ∧ Dict.get? M.cellData "LayerId" = some layers ∧
      Dict.get? M.cellData "ColumnId" = some columns ∧ Dict.get? M.cellData "CellGroup" = some groups ∧
      layers.vals[vtkId (cells M.nodes.d) (planeIx "yx" 0 1)]? = some 0 ∧
      columns.vals[vtkId (cells M.nodes.d) (planeIx "yx" 0 1)]? = some 1 ∧
      CellNamed table groups.vals (vtkId (cells M.nodes.d) (planeIx "yx" 0 1)) "default" := by
  have h : (stackRun (lineKit fun a b ts => generateSurfaceCore unitCells a b (stackPlane 0) ts)
        lineY 0 [(0, [0, 1], .none), (2, [0, 1/2, 1], .dict [("A", .mask [true, false])])]).toOption.map
          (fun r => ((r.1.nodes.d 0, r.1.nodes.d 1, r.1.nodes.d 2), r.1.cellData, r.2)) =
      some ((3, 3, 1), [("CellGroup", ⟨false, [0, 1, 0, 1]⟩), ("ColumnId", ⟨false, [0, 1, 0, 1]⟩),
        ("LayerId", ⟨false, [0, 0, 1, 1]⟩), ("StackItem", ⟨false, [0, 0, 0, 0]⟩)], [("A", 0), ("default", 1)]) := by
    decide +kernel
  cases hr : stackRun (lineKit fun a b ts => generateSurfaceCore unitCells a b (stackPlane 0) ts)
        lineY 0 [(0, [0, 1], .none), (2, [0, 1/2, 1], .dict [("A", .mask [true, false])])] with
  | error e => rw [hr] at h; cases h
  | ok r =>
    rw [hr] at h
    simp only [Except.toOption, Option.map_some, Option.some.injEq, Prod.mk.injEq] at h
    obtain ⟨⟨h0, h1, h2⟩, h3, h4⟩ := h
    have hd : r.1.nodes.d = planeShape "yx" 3 3 := by
      funext ax; fin_cases ax
      · exact h0
      · exact h1
      · exact h2
    refine ⟨r.1, r.2, ⟨false, [0, 0, 1, 1]⟩, ⟨false, [0, 1, 0, 1]⟩, ⟨false, [0, 1, 0, 1]⟩, rfl, hd, ?_, ?_, ?_, ?_, ?_, ?_⟩
    · rw [h3]; rfl
    · rw [h3]; rfl
    · rw [h3]; rfl
    · rw [hd]; rfl
    · rw [hd]; rfl
    · rw [hd, h4]; exact ⟨1, rfl, by decide⟩

/-- The arguments of two extrusions, with a scale and a group. -/
def someExtrusions : List (ExtrArgs ℝ (Opts (Resolution ℝ × Option String))) :=
  [⟨1, [0, 0, 1], none, none, ⟨(.int 2, none), .str "base"⟩⟩,
    ⟨1, [1, 0, 1], some 2, none, ⟨(.int 3, some "log"), .dict [("C", .mask [true, false])]⟩⟩]

/-- Concrete case of C98. -/
example (volume : Arr3 (V3 ℝ) → List ℝ) (hvol : ∀ x, (volume x).length = count (cells x.d))
    (rot : V3 ℝ → ℝ → V3 ℝ → V3 ℝ → V3 ℝ) :
    ∃ e R, (Extr.new (squareXY ℝ) none none).run rot someExtrusions = .ok e ∧
      extrudeS volume [] "default" e = .ok R := by
  obtain ⟨e, he⟩ : ∃ e, (Extr.new (squareXY ℝ) none none).run rot someExtrusions = .ok e := ⟨_, rfl⟩
  have key : ∀ (r : ℤ) m, Supported m → ∃ ts, resolutionToPerc (.int r) m = .ok ts ∧ fromZeroToOne ts := by
    intro r m hm
    obtain ⟨p, h1, h2, _⟩ := C11_integer_resolution r m hm
    refine ⟨p, h1, ?_, h2.first, ?_⟩
    · rw [h2.size]; omega
    · rw [h2.size]; exact h2.last
  obtain ⟨R, hR⟩ := (C98_extrude_partial volume hvol rot [] "default" ![3, 2, 1] (squareXY ℝ) squareXY_ok 2
    ⟨rfl, by decide⟩ none none someExtrusions (by simp [someExtrusions])
    (by
      intro x hx
      simp only [someExtrusions, List.mem_cons, List.not_mem_nil, or_false] at hx
      rcases hx with rfl | rfl
      · obtain ⟨ts, h1, h2⟩ := key 2 none (.inl rfl); exact ⟨ts, h1, h2⟩
      · obtain ⟨ts, h1, h2⟩ := key 3 (some "log") (.inr (.inl rfl)); exact ⟨ts, h1, h2⟩) e he).1
    (by
      intro x hx
      simp only [someExtrusions, List.mem_cons, List.not_mem_nil, or_false] at hx
      rcases hx with rfl | rfl
      · intro kv hkv
        simp only [entries] at hkv
        rw [if_neg (by decide), List.mem_singleton] at hkv
        subst hkv
        simp [Fits]
      · intro kv hkv
        simp only [entries, List.mem_singleton] at hkv
        subst hkv
        rfl)
  exact ⟨e, R, he, hR⟩

/-- A structured surface of dimensions 1 x 3 x 2 in the yz-plane. -/
def squareYZ : Surf ℚ GridTopo :=
  ⟨[![0, 0, 0], ![0, 1, 0], ![0, 2, 0], ![0, 0, 1], ![0, 1, 1], ![0, 2, 1]], ![1, 3, 2], [], [], none⟩

/-- **C97 (refuted).** Stacking it along x in two sublayers: cell 1 is the second sublayer of the first cell of the
surface, and is labelled layer 0 and column 1. -/
theorem C97_axis0_refuted :
    (∃ s : Stack ℚ GridTopo (Opts (List ℚ)), stack3DNew squareYZ 0 true = .ok s ∧ s = Stack.new squareYZ 0 true) ∧
    ∃ M table layers columns,
      stackRun (gridKit fun a b ts => generateVolumeStructured unitCells a b ts) squareYZ 0
        [(0, [0, 1], .none), (1, [0, 1/2, 1], .none)] = .ok (M, table) ∧
      M.nodes.d = ![3, 3, 2] ∧ vtkId (cells M.nodes.d) (Function.update ![0, 0, 0] 0 1) = 1 ∧
      Dict.get? M.cellData "LayerId" = some layers ∧ Dict.get? M.cellData "ColumnId" = some columns ∧
      layers.vals[1]? = some 0 ∧ columns.vals[1]? = some 1 := by
  refine ⟨⟨_, rfl, rfl⟩, ?_⟩
  set run := stackRun (gridKit fun a b ts => generateVolumeStructured unitCells a b ts) squareYZ 0
        [(0, [0, 1], .none), (1, [0, 1/2, 1], .none)] with hrun
  have h : run.toOption.map
          (fun r => ((r.1.nodes.d 0, r.1.nodes.d 1, r.1.nodes.d 2), r.1.cellData)) =
      some ((3, 3, 2), [("CellGroup", ⟨false, [0, 0, 0, 0]⟩), ("ColumnId", ⟨false, [0, 1, 0, 1]⟩),
        ("LayerId", ⟨false, [0, 0, 1, 1]⟩), ("StackItem", ⟨false, [0, 0, 0, 0]⟩)]) := by
    rw [hrun]; decide +kernel
  cases hr : run with
  | error e => rw [hr] at h; cases h
  | ok r =>
    rw [hr] at h
    simp only [Except.toOption, Option.map_some, Option.some.injEq, Prod.mk.injEq] at h
    obtain ⟨⟨h0, h1, h2⟩, h3⟩ := h
    have hd : r.1.nodes.d = ![3, 3, 2] := by
      funext ax; fin_cases ax
      · exact h0
      · exact h1
      · exact h2
    refine ⟨r.1, r.2, ⟨false, [0, 0, 1, 1]⟩, ⟨false, [0, 1, 0, 1]⟩, rfl, hd, ?_, ?_, ?_, rfl, rfl⟩
    · rw [hd]; rfl
    · rw [h3]; rfl
    · rw [h3]; rfl

/-- **C98 (refuted).** Extruding it along x in two sublayers: cell 1 is the second sublayer of the first cell of the
surface, and is labelled layer 0 and column 1. -/
theorem C98_flat_axis0_refuted :
    ∃ M table layers columns,
      assemble (gridKit fun a b ts => generateVolumeStructured unitCells a b ts) [] "default" "ExtrudeItem" 0
        [(squareYZ, none), (⟨squareYZ.points.map fun p => Function.update p 0 1, squareYZ.topo⟩,
          some ⟨[0, 1/2, 1], .none⟩)] = .ok (M, table) ∧
      M.nodes.d = ![3, 3, 2] ∧ vtkId (cells M.nodes.d) (Function.update ![0, 0, 0] 0 1) = 1 ∧
      Dict.get? M.cellData "LayerId" = some layers ∧ Dict.get? M.cellData "ColumnId" = some columns ∧
      layers.vals[1]? = some 0 ∧ columns.vals[1]? = some 1 := by
  set run := assemble (gridKit fun a b ts => generateVolumeStructured unitCells a b ts) [] "default" "ExtrudeItem" 0
        [(squareYZ, none), (⟨squareYZ.points.map fun p => Function.update p 0 1, squareYZ.topo⟩,
          some ⟨[0, 1/2, 1], .none⟩)] with hrun
  have h : run.toOption.map
          (fun r => ((r.1.nodes.d 0, r.1.nodes.d 1, r.1.nodes.d 2), r.1.cellData)) =
      some ((3, 3, 2), [("CellGroup", ⟨false, [0, 0, 0, 0]⟩), ("ColumnId", ⟨false, [0, 1, 0, 1]⟩),
        ("LayerId", ⟨false, [0, 0, 1, 1]⟩), ("ExtrudeItem", ⟨false, [0, 0, 0, 0]⟩)]) := by
    rw [hrun]; decide +kernel
  cases hr : run with
  | error e => rw [hr] at h; cases h
  | ok r =>
    rw [hr] at h
    simp only [Except.toOption, Option.map_some, Option.some.injEq, Prod.mk.injEq] at h
    obtain ⟨⟨h0, h1, h2⟩, h3⟩ := h
    have hd : r.1.nodes.d = ![3, 3, 2] := by
      funext ax; fin_cases ax
      · exact h0
      · exact h1
      · exact h2
    refine ⟨r.1, r.2, ⟨false, [0, 0, 1, 1]⟩, ⟨false, [0, 1, 0, 1]⟩, rfl, hd, ?_, ?_, ?_, rfl, rfl⟩
    · rw [hd]; rfl
    · rw [h3]; rfl
    · rw [h3]; rfl

end Gridder
