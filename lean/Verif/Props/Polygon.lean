import Verif.Model.Polygon
import Verif.Props.Curves

/-!
# Polygon (C68, C69, C82, C87, C88)
-/

namespace Gridder
open Spec

section spec
variable {K : Type} [Field K] [LinearOrder K]

/-- The rows of the array, with a zero third component if there are only two. -/
def Spec.ringPoints : Ring K → List (Fin 3 → K)
  | .two l => l.map fun p => ![p.1, p.2, 0]
  | .three l => l

/-- The ring given by the user goes through `pts`: either these are its points, or the first one is repeated at
the end. -/
def Spec.Encloses (ring : Ring K) (pts : List (Fin 3 → K)) : Prop :=
  pts ≠ [] ∧ pts.head? ≠ pts.getLast? ∧
    (ringPoints ring = pts ∨ ringPoints ring = pts ++ pts.head?.toList)

/-- Cyclic access. -/
def Spec.cyc (pts : List (Fin 3 → K)) (i : ℕ) : Fin 3 → K := pts.getD (i % pts.length) 0

/-- Gmsh was asked, after the calls `tr`, to make the points `pts` with sizes `sizes`, to join them by lines into a
closed loop, and to make the curve loop `loop` of these lines. -/
def Spec.Outline (g : Gmsh K) (tr : List (GmshCall K)) (pts : List (Fin 3 → K)) (sizes : List K)
    (calls : List (GmshCall K)) (loop : ℕ) : Prop :=
  ∃ nodeTags lineTags : List ℕ, nodeTags.length = pts.length ∧ lineTags.length = pts.length ∧
    calls = (pts.zip sizes).map (fun ps => .addPoint ps.1 ps.2) ++
      (List.range pts.length).map (fun i =>
        .addLine (nodeTags.getD i 0) (nodeTags.getD ((i + 1) % pts.length) 0)) ++ [.addCurveLoop lineTags] ∧
    (∀ i < pts.length, nodeTags.getD i 0 = g.tag (tr ++ calls.take i) (calls.getD i .clear) ∧
      lineTags.getD i 0 = g.tag (tr ++ calls.take (pts.length + i)) (calls.getD (pts.length + i) .clear)) ∧
    loop = g.tag (tr ++ calls.dropLast) (.addCurveLoop lineTags)

/-- The size at a point is the given one, or the longest of the two edges that meet there; it is doubled unless
triangles are wanted. -/
def Spec.SizesAt (nrm : (Fin 3 → K) → K) (pts : List (Fin 3 → K)) (celltype : String) (cellsize : Option K)
    (sizes : List K) : Prop :=
  sizes.length = pts.length ∧ ∀ i < pts.length, sizes.getD i 0 = (if celltype = "triangle" then 1 else 2) *
    match cellsize with
    | some s => s
    | none => max (nrm (cyc pts (i + 1) - cyc pts i)) (nrm (cyc pts i - cyc pts (i + pts.length - 1)))

/-- Is a Gmsh session open after these calls? -/
def Spec.sessionOpen : List (GmshCall K) → Bool
  | [] => false
  | l => l.foldl (fun s c => match c with
      | .initialize => true
      | .finalize => false
      | _ => s) false

end spec

namespace Gm
variable {K α β : Type}

theorem bind_ok {m : Gm K α} {f : α → Gm K β} {tr tr' : List (GmshCall K)} {b : β} :
    bind m f tr = (.ok b, tr') ↔ ∃ a t, m tr = (.ok a, t) ∧ f a t = (.ok b, tr') := by
  unfold bind
  rcases h : m tr with ⟨r, t⟩
  cases r with
  | error e => simp
  | ok a => simp

theorem lift_ok {x : Py α} {tr tr' : List (GmshCall K)} {a : α} :
    (lift x : Gm K α) tr = (.ok a, tr') ↔ x = .ok a ∧ tr' = tr := by
  simp [lift, eq_comm]

theorem pure_ok {x : α} {tr tr' : List (GmshCall K)} {a : α} :
    (pure x : Gm K α) tr = (.ok a, tr') ↔ a = x ∧ tr' = tr := by
  simp [pure, eq_comm]

theorem call_ok {g : Gmsh K} {c : GmshCall K} {ans : List (GmshCall K) → α} {tr tr' : List (GmshCall K)} {a : α} :
    call g c ans tr = (.ok a, tr') ↔ g.fails tr c = none ∧ a = ans tr ∧ tr' = tr ++ [c] := by
  unfold call
  cases g.fails tr c <;> simp [eq_comm]

theorem bind_error {m : Gm K α} {f : α → Gm K β} {tr tr' : List (GmshCall K)} {e : Err} :
    m tr = (.error e, tr') → bind m f tr = (.error e, tr') := by
  intro h; simp [bind, h]

theorem bind_run {m : Gm K α} {f : α → Gm K β} {tr tr' : List (GmshCall K)} {a : α} :
    m tr = (.ok a, tr') → bind m f tr = f a tr' := by
  intro h; simp [bind, h]

/-- What a computation adds to the calls satisfies `P` whatever happens. -/
def Only (P : GmshCall K → Prop) (m : Gm K α) : Prop :=
  ∀ tr, ∃ ext, (m tr).2 = tr ++ ext ∧ ∀ c ∈ ext, P c

theorem Only.pure {P : GmshCall K → Prop} (a : α) : Only P (Gm.pure a : Gm K α) :=
  fun tr => ⟨[], by simp [Gm.pure], by simp⟩

theorem Only.raise {P : GmshCall K → Prop} (e : Err) : Only P (Gm.raise e : Gm K α) :=
  fun tr => ⟨[], by simp [Gm.raise], by simp⟩

theorem Only.lift {P : GmshCall K → Prop} (x : Py α) : Only P (Gm.lift x : Gm K α) :=
  fun tr => ⟨[], by simp [Gm.lift], by simp⟩

theorem Only.call {P : GmshCall K → Prop} {g : Gmsh K} {c : GmshCall K} (hc : P c)
    (ans : List (GmshCall K) → α) : Only P (Gm.call g c ans) := by
  intro tr
  refine ⟨[c], ?_, by simpa using hc⟩
  unfold Gm.call
  cases g.fails tr c <;> rfl

theorem Only.bind {P : GmshCall K → Prop} {m : Gm K α} {f : α → Gm K β} (hm : Only P m)
    (hf : ∀ a, Only P (f a)) : Only P (Gm.bind m f) := by
  intro tr
  obtain ⟨e1, h1, p1⟩ := hm tr
  rcases h : m tr with ⟨r, t⟩
  rw [h] at h1
  simp only at h1
  subst h1
  cases r with
  | error e => exact ⟨e1, by rw [bind_error h], p1⟩
  | ok a =>
    obtain ⟨e2, h2, p2⟩ := hf a (tr ++ e1)
    refine ⟨e1 ++ e2, by rw [bind_run h, h2, List.append_assoc], ?_⟩
    intro c hc
    rcases List.mem_append.1 hc with hc | hc
    · exact p1 c hc
    · exact p2 c hc

theorem Only.each {P : GmshCall K → Prop} {f : α → Gm K β} (hf : ∀ a, Only P (f a)) :
    ∀ l : List α, Only P (Gm.each f l)
  | [] => Only.pure _
  | a :: l => (hf a).bind fun _ => (Only.each hf l).bind fun _ => Only.pure _

/-- A computation that returns a value has made no failing call. -/
def Honest (g : Gmsh K) (m : Gm K α) : Prop :=
  ∀ tr a tr', m tr = (.ok a, tr') → ∃ ext, tr' = tr ++ ext ∧
    ∀ i c, ext[i]? = some c → g.fails (tr ++ ext.take i) c = none

theorem Honest.pure {g : Gmsh K} (a : α) : Honest g (Gm.pure a : Gm K α) := by
  intro tr b tr' h
  exact ⟨[], by simpa using (pure_ok.1 h).2, by simp⟩

theorem Honest.raise {g : Gmsh K} (e : Err) : Honest g (Gm.raise e : Gm K α) := by
  intro tr b tr' h
  simp [Gm.raise] at h

theorem Honest.lift {g : Gmsh K} (x : Py α) : Honest g (Gm.lift x : Gm K α) := by
  intro tr b tr' h
  exact ⟨[], by simpa using (lift_ok.1 h).2, by simp⟩

theorem Honest.call {g : Gmsh K} (c : GmshCall K) (ans : List (GmshCall K) → α) :
    Honest g (Gm.call g c ans) := by
  intro tr b tr' h
  obtain ⟨h1, _, h2⟩ := call_ok.1 h
  refine ⟨[c], h2, ?_⟩
  rintro (_ | i) d hd
  · simp at hd; subst hd; simpa using h1
  · simp at hd

theorem Honest.bind {g : Gmsh K} {m : Gm K α} {f : α → Gm K β} (hm : Honest g m)
    (hf : ∀ a, Honest g (f a)) : Honest g (Gm.bind m f) := by
  intro tr b tr' h
  obtain ⟨a, t, h1, h2⟩ := bind_ok.1 h
  obtain ⟨e1, rfl, p1⟩ := hm _ _ _ h1
  obtain ⟨e2, rfl, p2⟩ := hf a _ _ _ h2
  refine ⟨e1 ++ e2, by simp, ?_⟩
  intro i c hc
  by_cases hi : i < e1.length
  · rw [List.getElem?_append_left hi] at hc
    rw [List.take_append_of_le_length hi.le]
    exact p1 i c hc
  · rw [List.getElem?_append_right (by omega)] at hc
    have := p2 _ c hc
    rw [List.append_assoc] at this
    rw [List.take_append, List.take_of_length_le (by omega)]
    exact this

theorem Honest.each {g : Gmsh K} {f : α → Gm K β} (hf : ∀ a, Honest g (f a)) :
    ∀ l : List α, Honest g (Gm.each f l)
  | [] => Honest.pure _
  | a :: l => (hf a).bind fun _ => (Honest.each hf l).bind fun _ => Honest.pure _

theorem Honest.tryFinally {g : Gmsh K} {m : Gm K α} {last : Gm K Unit} (hm : Honest g m)
    (hl : Honest g last) : Honest g (Gm.tryFinally m last) := by
  intro tr b tr' h
  have : Gm.bind m (fun a => Gm.bind last fun _ => Gm.pure a) tr = (.ok b, tr') := by
    unfold Gm.tryFinally at h
    unfold Gm.bind
    rcases h1 : m tr with ⟨r, t⟩
    rw [h1] at h
    simp only at h
    rcases h2 : last t with ⟨r2, t2⟩
    rw [h2] at h
    cases r2 with
    | error e => simp at h
    | ok u =>
      simp only [Prod.mk.injEq] at h
      obtain ⟨rfl, rfl⟩ := h
      simp [h2, Gm.pure]
  exact (hm.bind fun _ => hl.bind fun _ => Honest.pure _) _ _ _ this

/-- A loop of calls that return tags. -/
theorem each_tags {g : Gmsh K} {c : α → GmshCall K} :
    ∀ {l : List α} {tr tr' : List (GmshCall K)} {tags : List ℕ},
      Gm.each (fun a => Gm.callTag g (c a)) l tr = (.ok tags, tr') →
      tr' = tr ++ l.map c ∧ tags.length = l.length ∧
        ∀ i a, l[i]? = some a → tags[i]? = some (g.tag (tr ++ (l.map c).take i) (c a))
  | [], tr, tr', tags, h => by
    obtain ⟨rfl, rfl⟩ := pure_ok.1 h
    simp
  | a :: l, tr, tr', tags, h => by
    obtain ⟨t, s, h1, h2⟩ := bind_ok.1 h
    obtain ⟨_, rfl, rfl⟩ := call_ok.1 h1
    obtain ⟨ts, s', h3, h4⟩ := bind_ok.1 h2
    obtain ⟨rfl, rfl⟩ := pure_ok.1 h4
    obtain ⟨rfl, g2, g3⟩ := each_tags h3
    refine ⟨by simp, by simp [g2], ?_⟩
    rintro (_ | i) b hb
    · simp at hb; subst hb; simp
    · simp only [List.getElem?_cons_succ] at hb ⊢
      rw [g3 i b hb]
      simp

end Gm

section rings
variable {K : Type} [Field K] [LinearOrder K]

theorem closeRing_open {α : Type} [DecidableEq α] {pts : List α} (h : pts ≠ [])
    (hl : pts.head? ≠ pts.getLast?) : closeRing pts = .ok (pts ++ pts.head?.toList) := by
  obtain ⟨p, r, rfl⟩ := List.exists_cons_of_ne_nil h
  simp only [closeRing, List.head?_cons] at hl ⊢
  rw [if_neg (fun h => hl h.symm)]
  rfl

theorem closeRing_closed {α : Type} [DecidableEq α] {pts : List α} (h : pts ≠ []) :
    closeRing (pts ++ pts.head?.toList) = .ok (pts ++ pts.head?.toList) := by
  obtain ⟨p, r, rfl⟩ := List.exists_cons_of_ne_nil h
  have : (p :: (r ++ [p])).getLast? = some p := by
    rw [← List.cons_append, List.getLast?_concat]
  simp [closeRing, this]

theorem vec_inj {p q : K × K} (h : (![p.1, p.2, 0] : V3 K) = ![q.1, q.2, 0]) : p = q := by
  have h0 := congrFun h 0
  have h1 := congrFun h 1
  simp at h0 h1
  exact Prod.ext h0 h1

theorem map_vec_inj : ∀ {l l' : List (K × K)},
    l.map (fun p => (![p.1, p.2, 0] : V3 K)) = l'.map (fun p => ![p.1, p.2, 0]) → l = l' := by
  intro l l' h
  exact (List.map_injective_iff.2 fun p q h => vec_inj h) h

theorem toPoints_encloses {ring : Ring K} {pts : List (V3 K)} (h : Encloses ring pts) :
    toPoints ring = .ok (pts ++ pts.head?.toList) := by
  obtain ⟨hne, hd, hr⟩ := h
  cases ring with
  | three l =>
    simp only [ringPoints] at hr
    rcases hr with rfl | rfl
    · exact closeRing_open hne hd
    · exact closeRing_closed hne
  | two l =>
    simp only [ringPoints] at hr
    simp only [toPoints]
    rcases hr with rfl | hr
    · have hl : l ≠ [] := by rintro rfl; simp at hne
      have hd' : l.head? ≠ l.getLast? := by
        intro h; apply hd
        rw [List.head?_map, List.getLast?_map, h]
      rw [closeRing_open hl hd']
      simp only [Except.map, List.map_append, List.head?_map]
      congr 2
      cases l.head? <;> rfl
    · obtain ⟨p, r, rfl⟩ := List.exists_cons_of_ne_nil hne
      have hlne : l ≠ [] := by
        rintro rfl; simp at hr
      obtain ⟨q, s, rfl⟩ := List.exists_cons_of_ne_nil hlne
      simp only [List.map_cons, List.head?_cons, Option.toList_some, List.cons_append, List.cons.injEq] at hr
      obtain ⟨rfl, hr⟩ := hr
      have hlast : (q :: s).getLast? = some q := by
        have h1 : ((q :: s).map fun p : K × K => (![p.1, p.2, 0] : V3 K)).getLast? =
            some ![q.1, q.2, 0] := by
          rw [List.map_cons, hr, ← List.cons_append, List.getLast?_concat]
        rw [List.getLast?_map] at h1
        cases h2 : (q :: s).getLast? with
        | none => simp at h2
        | some z =>
          rw [h2] at h1
          simp only [Option.map_some, Option.some.injEq] at h1
          rw [vec_inj h1]
      simp only [closeRing, hlast, if_true, Except.map, List.map_cons, hr]
      simp

theorem mapM_toPoints : ∀ {holes : List (Ring K)} {hp : List (List (V3 K))},
    List.Forall₂ Encloses holes hp →
      holes.mapM toPoints = .ok (hp.map fun pts => pts ++ pts.head?.toList)
  | [], _, h => by cases h; rfl
  | r :: rs, _, h => by
    cases h with
    | cons h1 h2 =>
      rw [List.mapM_cons, toPoints_encloses h1, mapM_toPoints h2]
      rfl

end rings

section C68
variable {K : Type} [Field K] [LinearOrder K]
variable (g : Gmsh K) (nrm : V3 K → K)

theorem polygon_run {shell : Ring K} {pts : List (V3 K)} (hs : Encloses shell pts) {holes : List (Ring K)}
    {hp : List (List (V3 K))} (hh : List.Forall₂ Encloses holes hp) (celltype : Option String)
    (cellsize : Option K) (algorithm : K) (optimization : Option String) (engine : String) :
    polygon g nrm shell holes celltype cellsize algorithm optimization engine =
      let shell := pts ++ pts.head?.toList
      let holes := hp.map fun pts => pts ++ pts.head?.toList
      let celltype := defaultCelltype celltype holes
      if celltype = "polygon" then
        if holes = [] then Gm.pure ⟨shell.dropLast, [(7, List.range shell.dropLast.length)]⟩
        else Gm.raise .valueError
      else if celltype = "quad" ∨ celltype = "triangle" then
        Gm.tryFinally (gmshBody g nrm shell holes celltype cellsize algorithm optimization engine) (closeSession g)
      else Gm.raise .valueError := by
  funext tr
  unfold polygon
  rw [toPoints_encloses hs, mapM_toPoints hh]
  rfl

/-- **C68.** Two ways of giving the same rings, closed or not, with two or three components, give the same result
and make the same calls of Gmsh. -/
theorem C68_same_ring {shell shell' : Ring K} {pts : List (V3 K)} (hs : Encloses shell pts)
    (hs' : Encloses shell' pts) {holes holes' : List (Ring K)} {hp : List (List (V3 K))}
    (hh : List.Forall₂ Encloses holes hp) (hh' : List.Forall₂ Encloses holes' hp) (celltype : Option String)
    (cellsize : Option K) (algorithm : K) (optimization : Option String) (engine : String) :
    polygon g nrm shell holes celltype cellsize algorithm optimization engine =
      polygon g nrm shell' holes' celltype cellsize algorithm optimization engine := by
  rw [polygon_run g nrm hs hh, polygon_run g nrm hs' hh']

/-- **C68.** Without holes the default is one polygon through the points, in order, each once, and Gmsh is not
called. -/
theorem C68_polygon {shell : Ring K} {pts : List (V3 K)} (hs : Encloses shell pts) {celltype : Option String}
    (hc : celltype = none ∨ celltype = some "" ∨ celltype = some "polygon")
    (cellsize : Option K) (algorithm : K) (optimization : Option String) (engine : String)
    (tr : List (GmshCall K)) :
    polygon g nrm shell [] celltype cellsize algorithm optimization engine tr =
      (.ok ⟨pts, [(7, List.range pts.length)]⟩, tr) := by
  rw [polygon_run g nrm hs .nil]
  obtain ⟨p, r, rfl⟩ := List.exists_cons_of_ne_nil hs.1
  have hd : (p :: (r ++ [p])).dropLast = p :: r := by
    rw [← List.cons_append, List.dropLast_concat]
  rcases hc with rfl | rfl | rfl <;> simp [defaultCelltype, Gm.pure, hd]

/-- **C68.** Holes cannot be given for cell type polygon; Gmsh is not called. -/
theorem C68_holes {shell : Ring K} {pts : List (V3 K)} (hs : Encloses shell pts) {hole : Ring K}
    {holes : List (Ring K)} {hp : List (List (V3 K))} (hh : List.Forall₂ Encloses (hole :: holes) hp)
    (cellsize : Option K) (algorithm : K) (optimization : Option String) (engine : String)
    (tr : List (GmshCall K)) :
    polygon g nrm shell (hole :: holes) (some "polygon") cellsize algorithm optimization engine tr =
      (.error .valueError, tr) := by
  rw [polygon_run g nrm hs hh]
  cases hh
  simp [defaultCelltype, Gm.raise]

/-- **C68.** An unknown cell type is refused, without calling Gmsh. -/
theorem C68_celltype {shell : Ring K} {pts : List (V3 K)} (hs : Encloses shell pts)
    {holes : List (Ring K)} {hp : List (List (V3 K))} (hh : List.Forall₂ Encloses holes hp) {s : String}
    (h : s ∉ ["", "polygon", "quad", "triangle"])
    (cellsize : Option K) (algorithm : K) (optimization : Option String) (engine : String)
    (tr : List (GmshCall K)) :
    polygon g nrm shell holes (some s) cellsize algorithm optimization engine tr =
      (.error .valueError, tr) := by
  rw [polygon_run g nrm hs hh]
  simp only [List.mem_cons, List.not_mem_nil, or_false, not_or] at h
  simp [defaultCelltype, Gm.raise, h]

/-- What is outside C68: a ring of one point counts as closed, so that the polygon has no point at all. -/
theorem C68_single_point (p : V3 K) (cellsize : Option K) (algorithm : K) (optimization : Option String)
    (engine : String) (tr : List (GmshCall K)) :
    polygon g nrm (.three [p]) [] none cellsize algorithm optimization engine tr =
      (.ok ⟨[], [(7, [])]⟩, tr) := by
  simp [polygon, toPoints, closeRing, Gm.bind, Gm.lift, Gm.pure, defaultCelltype, pure, Except.pure]

/-- A square given open and closed. -/
example : Encloses (.two [(0, 0), (1, 0), (1, 1), (0, 1)] : Ring ℚ) [![0,0,0], ![1,0,0], ![1,1,0], ![0,1,0]] ∧
    Encloses (.three [![0,0,0], ![1,0,0], ![1,1,0], ![0,1,0], ![0,0,0]] : Ring ℚ)
      [![0,0,0], ![1,0,0], ![1,1,0], ![0,1,0]] := by
  refine ⟨⟨by simp, by decide +kernel, Or.inl rfl⟩, ⟨by simp, by decide +kernel, Or.inr rfl⟩⟩

end C68

section C69
variable {K : Type} [Field K] [LinearOrder K]
variable (g : Gmsh K) (nrm : V3 K → K)

/-- Calls that neither open nor close the session. -/
def Spec.Working (c : GmshCall K) : Prop := c ≠ .initialize ∧ c ≠ .clear ∧ c ≠ .finalize

theorem addCurveLoop_only (points : List (V3 K)) (celltype : String) (cellsize : Option K) :
    Gm.Only Working (addCurveLoop g nrm points celltype cellsize) := by
  unfold addCurveLoop
  refine (Gm.Only.lift _).bind fun sizes => (Gm.Only.each (fun _ => Gm.Only.call (by simp [Working]) _) _).bind
    fun nt => (Gm.Only.each (fun _ => Gm.Only.call (by simp [Working]) _) _).bind fun lt => ?_
  split
  · exact (Gm.Only.call (by simp [Working]) _).bind fun _ => Gm.Only.call (by simp [Working]) _
  · exact Gm.Only.raise _

theorem addSurface_only (points : List (V3 K)) (celltype : String) (cellsize : Option K) :
    Gm.Only Working (addSurface g nrm points celltype cellsize) :=
  (addCurveLoop_only g nrm points celltype cellsize).bind fun _ =>
    (Gm.Only.call (by simp [Working]) _).bind fun _ => Gm.Only.pure _

theorem outline_only (shell : List (V3 K)) (holes : List (List (V3 K))) (celltype : String)
    (cellsize : Option K) (engine : String) :
    Gm.Only Working (outline g nrm shell holes celltype cellsize engine) := by
  unfold outline
  split
  · exact (Gm.Only.each (fun _ => addCurveLoop_only g nrm _ _ _) _).bind fun _ =>
      (Gm.Only.call (by simp [Working]) _).bind fun _ => Gm.Only.pure _
  · split
    · refine (addSurface_only g nrm _ _ _).bind fun _ => ?_
      split
      · exact Gm.Only.pure _
      · exact (Gm.Only.each (fun _ => addSurface_only g nrm _ _ _) _).bind fun _ =>
          Gm.Only.call (by simp [Working]) _
    · exact Gm.Only.raise _

theorem setSizes_only (cellsize : Option K) : Gm.Only Working (setSizes g cellsize) := by
  unfold setSizes
  split
  · exact Gm.Only.pure _
  · exact (Gm.Only.call (by simp [Working]) _).bind fun _ => (Gm.Only.call (by simp [Working]) _).bind fun _ =>
      (Gm.Only.call (by simp [Working]) _).bind fun _ => Gm.Only.call (by simp [Working]) _

theorem convertMesh_only : Gm.Only Working (convertMesh g) := by
  unfold convertMesh
  refine (Gm.Only.call (by simp [Working]) _).bind fun _ => (Gm.Only.call (by simp [Working]) _).bind fun _ =>
    (Gm.Only.lift _).bind fun _ => (Gm.Only.each (fun e => ?_) _).bind fun _ => Gm.Only.pure _
  unfold convertElements
  exact (Gm.Only.lift _).bind fun _ => (Gm.Only.call (by simp [Working]) _).bind fun _ =>
    (Gm.Only.lift _).bind fun _ => Gm.Only.pure _

theorem gmshBody_calls (shell : List (V3 K)) (holes : List (List (V3 K))) (celltype : String)
    (cellsize : Option K) (algorithm : K) (optimization : Option String) (engine : String)
    (tr : List (GmshCall K)) :
    ∃ body, (gmshBody g nrm shell holes celltype cellsize algorithm optimization engine tr).2 =
      tr ++ .initialize :: body ∧ ∀ c ∈ body, Working c := by
  unfold gmshBody
  rcases h : Gm.call_ g .initialize tr with ⟨r, t⟩
  have ht : t = tr ++ [.initialize] := by
    unfold Gm.call_ Gm.call at h
    cases hf : g.fails tr .initialize <;> rw [hf] at h <;> simp at h <;> exact h.2.symm
  subst ht
  cases r with
  | error e => exact ⟨[], by rw [Gm.bind_error h], by simp⟩
  | ok u =>
    rw [Gm.bind_run h]
    have hrest : Gm.Only Working (Gm.bind (outline g nrm shell holes celltype cellsize engine)
      fun (dimTags : List (Nat × Nat)) =>
      Gm.bind (setSizes g cellsize) fun _ =>
      Gm.bind (Gm.call_ g (.setNumber "Mesh.Algorithm" algorithm)) fun _ =>
      Gm.bind (Gm.call_ g (.setNumber "General.Verbosity" 0)) fun _ =>
      Gm.bind (Gm.call_ g .synchronize) fun _ =>
      Gm.bind (if celltype = "quad" then Gm.each (fun (d : Nat × Nat) => Gm.call_ g (.setRecombine d.1 d.2)) dimTags
        else Gm.pure []) fun _ =>
      Gm.bind (Gm.call_ g (.generate 2)) fun _ =>
      Gm.bind (optimizeMesh g optimization) fun _ =>
      convertMesh g) := by
      refine (outline_only g nrm _ _ _ _ _).bind fun d => (setSizes_only g _).bind fun _ =>
        (Gm.Only.call (by simp [Working]) _).bind fun _ => (Gm.Only.call (by simp [Working]) _).bind fun _ =>
        (Gm.Only.call (by simp [Working]) _).bind fun _ => Gm.Only.bind ?_ fun _ =>
        (Gm.Only.call (by simp [Working]) _).bind fun _ => Gm.Only.bind ?_ fun _ => convertMesh_only g
      · split
        · exact Gm.Only.each (fun _ => Gm.Only.call (by simp [Working]) _) _
        · exact Gm.Only.pure _
      · unfold optimizeMesh
        split
        · split
          · exact Gm.Only.pure _
          · exact Gm.Only.call (by simp [Working]) _
        · exact Gm.Only.pure _
    obtain ⟨ext, h1, h2⟩ := hrest (tr ++ [.initialize])
    exact ⟨ext, by rw [h1]; simp, h2⟩

/-- **C69 (partial).** Whatever Gmsh does, as long as `clear` itself does not fail, a call of `Polygon` that uses Gmsh
opens the session once and ends with exactly one `clear` and one `finalize`.
Missing: `clear` failing, see `C69_close_refuted`. -/
theorem C69_close_partial (hclear : ∀ tr, g.fails tr .clear = none) {shell : Ring K} {pts : List (V3 K)}
    (hs : Encloses shell pts) {holes : List (Ring K)} {hp : List (List (V3 K))}
    (hh : List.Forall₂ Encloses holes hp) {celltype : Option String}
    (hc : celltype = some "quad" ∨ celltype = some "triangle" ∨ celltype = none ∧ holes ≠ [])
    (cellsize : Option K) (algorithm : K) (optimization : Option String) (engine : String)
    (tr : List (GmshCall K)) :
    ∃ body, (polygon g nrm shell holes celltype cellsize algorithm optimization engine tr).2 =
      tr ++ .initialize :: body ++ [.clear, .finalize] ∧ ∀ c ∈ body, Working c := by
  rw [polygon_run g nrm hs hh]
  obtain ⟨ct, hct⟩ : ∃ ct, ct = defaultCelltype celltype (hp.map fun pts => pts ++ pts.head?.toList) := ⟨_, rfl⟩
  have hq : ct ≠ "polygon" ∧ (ct = "quad" ∨ ct = "triangle") := by
    rcases hc with rfl | rfl | ⟨rfl, h⟩
    · rw [hct]; simp [defaultCelltype]
    · rw [hct]; simp [defaultCelltype]
    · have : hp ≠ [] := by
        rintro rfl
        cases hh
        exact h rfl
      rw [hct]; simp [defaultCelltype, this]
  simp only [← hct]
  rw [if_neg hq.1, if_pos hq.2]
  obtain ⟨body, h1, h2⟩ := gmshBody_calls g nrm (pts ++ pts.head?.toList)
    (hp.map fun pts => pts ++ pts.head?.toList) ct cellsize algorithm optimization engine tr
  refine ⟨body, ?_, h2⟩
  unfold Gm.tryFinally
  simp only [h1]
  unfold closeSession
  rw [Gm.bind_run (a := ()) (tr' := tr ++ .initialize :: body ++ [.clear]) (by
    unfold Gm.call_
    rw [Gm.call_ok]
    exact ⟨hclear _, rfl, rfl⟩)]
  unfold Gm.call_ Gm.call
  cases g.fails (tr ++ .initialize :: body ++ [.clear]) .finalize <;> simp

/-- **C69.** No failure is swallowed: when `Polygon` returns a mesh, none of the calls it has made failed. -/
theorem C69_no_failure (shell : Ring K) (holes : List (Ring K)) (celltype : Option String)
    (cellsize : Option K) (algorithm : K) (optimization : Option String) (engine : String)
    {tr tr' : List (GmshCall K)} {M : CellMesh K}
    (h : polygon g nrm shell holes celltype cellsize algorithm optimization engine tr = (.ok M, tr')) :
    ∃ ext, tr' = tr ++ ext ∧ ∀ i c, ext[i]? = some c → g.fails (tr ++ ext.take i) c = none := by
  have hloop : ∀ points celltype, Gm.Honest g (addCurveLoop g nrm points celltype cellsize) := by
    intro points celltype
    unfold addCurveLoop
    refine (Gm.Honest.lift _).bind fun sizes => (Gm.Honest.each (fun _ => Gm.Honest.call _ _) _).bind
      fun nt => (Gm.Honest.each (fun _ => Gm.Honest.call _ _) _).bind fun lt => ?_
    split
    · exact (Gm.Honest.call _ _).bind fun _ => Gm.Honest.call _ _
    · exact Gm.Honest.raise _
  have hsurf : ∀ points celltype, Gm.Honest g (addSurface g nrm points celltype cellsize) := fun points celltype =>
    (hloop points celltype).bind fun _ => (Gm.Honest.call _ _).bind fun _ => Gm.Honest.pure _
  have hall : Gm.Honest g (polygon g nrm shell holes celltype cellsize algorithm optimization engine) := by
    unfold polygon
    refine (Gm.Honest.lift _).bind fun shell => (Gm.Honest.lift _).bind fun holes => ?_
    dsimp only
    split
    · split
      · exact Gm.Honest.pure _
      · exact Gm.Honest.raise _
    · split
      · refine Gm.Honest.tryFinally ?_ ((Gm.Honest.call _ _).bind fun _ => Gm.Honest.call _ _)
        unfold gmshBody
        refine (Gm.Honest.call _ _).bind fun _ => Gm.Honest.bind ?_ fun _ => Gm.Honest.bind ?_ fun _ =>
          (Gm.Honest.call _ _).bind fun _ => (Gm.Honest.call _ _).bind fun _ => (Gm.Honest.call _ _).bind fun _ =>
          Gm.Honest.bind ?_ fun _ => (Gm.Honest.call _ _).bind fun _ => Gm.Honest.bind ?_ fun _ => ?_
        · unfold outline
          split
          · exact (Gm.Honest.each (fun _ => hloop _ _) _).bind fun _ =>
              (Gm.Honest.call _ _).bind fun _ => Gm.Honest.pure _
          · split
            · refine (hsurf _ _).bind fun _ => ?_
              split
              · exact Gm.Honest.pure _
              · exact (Gm.Honest.each (fun _ => hsurf _ _) _).bind fun _ => Gm.Honest.call _ _
            · exact Gm.Honest.raise _
        · unfold setSizes
          split
          · exact Gm.Honest.pure _
          · exact (Gm.Honest.call _ _).bind fun _ => (Gm.Honest.call _ _).bind fun _ =>
              (Gm.Honest.call _ _).bind fun _ => Gm.Honest.call _ _
        · split
          · exact Gm.Honest.each (fun _ => Gm.Honest.call _ _) _
          · exact Gm.Honest.pure _
        · unfold optimizeMesh
          split
          · split
            · exact Gm.Honest.pure _
            · exact Gm.Honest.call _ _
          · exact Gm.Honest.pure _
        · unfold convertMesh
          refine (Gm.Honest.call _ _).bind fun _ => (Gm.Honest.call _ _).bind fun _ =>
            (Gm.Honest.lift _).bind fun _ => (Gm.Honest.each (fun e => ?_) _).bind fun _ => Gm.Honest.pure _
          unfold convertElements
          exact (Gm.Honest.lift _).bind fun _ => (Gm.Honest.call _ _).bind fun _ =>
            (Gm.Honest.lift _).bind fun _ => Gm.Honest.pure _
      · exact Gm.Honest.raise _
  exact hall _ _ _ h

/-- A Gmsh that cannot be initialised and that, not being initialised, cannot be cleared either. -/
def brokenGmsh : Gmsh ℚ where
  fails := fun tr c => match c with
    | .initialize => some .typeError
    | .clear => some .notImplemented
    | _ => none
  tag := fun _ _ => 1
  dimTags := fun _ _ => []
  nodes := fun _ => ([], [])
  elements := fun _ => []
  nodesPerElement := fun _ => 3

/-- **C69 refuted.** When `clear` fails, e.g. because the session could not be opened, `finalize` is not called and
the exception the user sees is that of `clear`, not the one that occurred. -/
theorem C69_close_refuted :
    polygon brokenGmsh (fun _ => 1) (.two [(0, 0), (1, 0), (0, 1)]) [] (some "triangle") none 6 none "gmsh" [] =
      (.error .notImplemented, [.initialize, .clear]) := by
  have h : Encloses (.two [(0, 0), (1, 0), (0, 1)] : Ring ℚ) [![0,0,0], ![1,0,0], ![0,1,0]] :=
    ⟨by simp, by decide +kernel, Or.inl rfl⟩
  rw [polygon_run _ _ h .nil]
  simp [defaultCelltype, Gm.tryFinally, gmshBody, Gm.call_, Gm.call, brokenGmsh, closeSession, Gm.bind]

/-- **C88 (partial).** A session that was closed before the call is closed after it. Missing: a session opened by the
caller, see `C88_session_refuted`. -/
theorem C88_session_partial (hclear : ∀ tr, g.fails tr .clear = none) {shell : Ring K} {pts : List (V3 K)}
    (hs : Encloses shell pts) {holes : List (Ring K)} {hp : List (List (V3 K))}
    (hh : List.Forall₂ Encloses holes hp) {celltype : Option String}
    (cellsize : Option K) (algorithm : K) (optimization : Option String) (engine : String)
    (tr : List (GmshCall K)) (htr : sessionOpen tr = false) :
    sessionOpen (polygon g nrm shell holes celltype cellsize algorithm optimization engine tr).2 = false := by
  by_cases hq : defaultCelltype celltype (hp.map fun pts => pts ++ pts.head?.toList) = "quad" ∨
      defaultCelltype celltype (hp.map fun pts => pts ++ pts.head?.toList) = "triangle"
  · have hc : celltype = some "quad" ∨ celltype = some "triangle" ∨
        (celltype = none ∨ celltype = some "") ∧ holes ≠ [] := by
      cases celltype with
      | none =>
        refine Or.inr (Or.inr ⟨Or.inl rfl, ?_⟩)
        rintro rfl
        cases hh
        simp [defaultCelltype] at hq
      | some s =>
        by_cases hs0 : s = ""
        · subst hs0
          refine Or.inr (Or.inr ⟨Or.inr rfl, ?_⟩)
          rintro rfl
          cases hh
          simp [defaultCelltype] at hq
        · simp only [defaultCelltype, if_neg hs0] at hq
          rcases hq with rfl | rfl <;> simp
    have hsame : ∀ tr, polygon g nrm shell holes (some "") cellsize algorithm optimization engine tr =
        polygon g nrm shell holes none cellsize algorithm optimization engine tr := by
      intro tr
      rw [polygon_run g nrm hs hh, polygon_run g nrm hs hh]
      simp [defaultCelltype]
    have hkey : ∀ ct, (ct = some "quad" ∨ ct = some "triangle" ∨ ct = none ∧ holes ≠ []) →
        sessionOpen (polygon g nrm shell holes ct cellsize algorithm optimization engine tr).2 = false := by
      intro ct hct
      obtain ⟨body, h1, _⟩ := C69_close_partial g nrm hclear hs hh hct cellsize algorithm optimization engine tr
      rw [h1]
      have : ∀ l : List (GmshCall K), sessionOpen (l ++ [.clear, .finalize]) = false := by
        intro l
        have hne : l ++ [GmshCall.clear, GmshCall.finalize] ≠ [] := by simp
        unfold sessionOpen
        split
        · rfl
        · rw [List.foldl_append]; rfl
      exact this _
    rcases hc with rfl | rfl | ⟨rfl | rfl, h⟩
    · exact hkey _ (Or.inl rfl)
    · exact hkey _ (Or.inr (Or.inl rfl))
    · exact hkey _ (Or.inr (Or.inr ⟨rfl, h⟩))
    · rw [hsame]; exact hkey _ (Or.inr (Or.inr ⟨rfl, h⟩))
  · rw [polygon_run g nrm hs hh]
    dsimp only
    rw [if_neg hq]
    split
    · split
      · exact htr
      · exact htr
    · exact htr

/-- **C88 refuted.** Whatever calls the caller made before, when `Polygon` has used Gmsh the caller's own session is
closed (and its models are cleared). -/
theorem C88_session_refuted (hclear : ∀ tr, g.fails tr .clear = none) {shell : Ring K} {pts : List (V3 K)}
    (hs : Encloses shell pts) (cellsize : Option K) (algorithm : K) (optimization : Option String)
    (engine : String) (calls : List (GmshCall K)) :
    sessionOpen (calls ++ [.initialize]) = true ∧
    sessionOpen (polygon g nrm shell [] (some "triangle") cellsize algorithm optimization engine
      (calls ++ [.initialize])).2 = false := by
  have hopen : ∀ l : List (GmshCall K), sessionOpen (l ++ [.initialize]) = true := by
    intro l
    have hne : l ++ [GmshCall.initialize] ≠ [] := by simp
    unfold sessionOpen
    split
    · contradiction
    · rw [List.foldl_append]; rfl
  have hclosed : ∀ l : List (GmshCall K), sessionOpen (l ++ [.clear, .finalize]) = false := by
    intro l
    unfold sessionOpen
    split
    · rfl
    · rw [List.foldl_append]; rfl
  obtain ⟨body, h1, _⟩ := C69_close_partial g nrm hclear hs .nil (Or.inr (Or.inl rfl)) cellsize algorithm
    optimization engine (calls ++ [.initialize])
  exact ⟨hopen _, by rw [h1]; exact hclosed _⟩

end C69

section C82
variable {K : Type} [Field K] [LinearOrder K]
variable (g : Gmsh K) (nrm : V3 K → K)

theorem Gm.each_rel {α β : Type} {f : α → Gm K β}
    (R : List (GmshCall K) → α → List (GmshCall K) → β → Prop) :
    ∀ {l : List α} {tr tr' : List (GmshCall K)} {bs : List β},
      (∀ a ∈ l, ∀ t b t', f a t = (.ok b, t') → ∃ calls, t' = t ++ calls ∧ R t a calls b) →
      Gm.each f l tr = (.ok bs, tr') →
      ∃ css : List (List (GmshCall K)), tr' = tr ++ css.flatten ∧ css.length = l.length ∧ bs.length = l.length ∧
        ∀ (i : ℕ) a, l[i]? = some a → ∃ c b, css[i]? = some c ∧ bs[i]? = some b ∧
          R (tr ++ (css.take i).flatten) a c b
  | [], tr, tr', bs, _, h => by
    obtain ⟨rfl, rfl⟩ := Gm.pure_ok.1 h
    exact ⟨[], by simp, rfl, rfl, by simp⟩
  | a :: l, tr, tr', bs, hf, h => by
    obtain ⟨b, s, h1, h2⟩ := Gm.bind_ok.1 h
    obtain ⟨bs', s', h3, h4⟩ := Gm.bind_ok.1 h2
    obtain ⟨rfl, rfl⟩ := Gm.pure_ok.1 h4
    obtain ⟨c, rfl, hc⟩ := hf a (by simp) _ _ _ h1
    obtain ⟨css, rfl, g2, g3, g4⟩ := Gm.each_rel R (fun a ha => hf a (by simp [ha])) h3
    refine ⟨c :: css, by simp, by simp [g2], by simp [g3], ?_⟩
    rintro (_ | i) d hd
    · simp at hd; subst hd; exact ⟨c, b, by simp, by simp, by simpa using hc⟩
    · simp only [List.getElem?_cons_succ] at hd
      obtain ⟨c', b', k1, k2, k3⟩ := g4 i d hd
      refine ⟨c', b', by simpa using k1, by simpa using k2, ?_⟩
      simpa using k3

theorem segmentLengths_ring {p : V3 K} {r : List (V3 K)} :
    (segmentLengths nrm ((p :: r) ++ [p])).length = (p :: r).length ∧
    ∀ i < (p :: r).length, (segmentLengths nrm ((p :: r) ++ [p]))[i]? =
      some (nrm (cyc (p :: r) (i + 1) - cyc (p :: r) i)) := by
  constructor
  · simp [segmentLengths]
  · intro i hi
    obtain ⟨q, hq⟩ : ∃ q, q = p :: r := ⟨_, rfl⟩
    have hq0 : q[0]? = some p := by rw [hq]; rfl
    rw [← hq] at hi ⊢
    have hc : ∀ j < q.length, q[j]? = some (cyc q j) := by
      intro j hj
      unfold cyc
      rw [Nat.mod_eq_of_lt hj, List.getD_eq_getElem?_getD, List.getElem?_eq_getElem hj]
      rfl
    unfold segmentLengths
    rw [List.getElem?_zipWith]
    have h1 : (q ++ [p])[i]? = some (cyc q i) := by
      rw [List.getElem?_append_left hi, hc i hi]
    have h2 : (q ++ [p]).tail[i]? = some (cyc q (i + 1)) := by
      rw [List.getElem?_tail]
      by_cases hl : i + 1 < q.length
      · rw [List.getElem?_append_left hl, hc _ hl]
      · have he : i + 1 = q.length := by omega
        rw [he, List.getElem?_append_right le_rfl, Nat.sub_self]
        unfold cyc
        rw [Nat.mod_self, List.getD_eq_getElem?_getD, hq0]
        rfl
    rw [h1, h2]

theorem cyc_add_length (pts : List (V3 K)) (i : ℕ) : cyc pts (i + pts.length) = cyc pts i := by
  unfold cyc
  rw [Nat.add_mod_right]

theorem meshSizes_ok {p : V3 K} {r : List (V3 K)} {celltype : String} {cellsize : Option K} {sizes : List K}
    (h : meshSizes nrm ((p :: r) ++ [p]) celltype cellsize = .ok sizes) :
    SizesAt nrm (p :: r) celltype cellsize sizes := by
  unfold meshSizes at h
  cases cellsize with
  | some s =>
    simp only [List.length_append, List.length_singleton, Nat.add_sub_cancel, Except.ok.injEq] at h
    subst h
    refine ⟨by simp, ?_⟩
    intro i hi
    rw [List.getD_eq_getElem?_getD, List.map_replicate, List.getElem?_replicate, if_pos hi]
    simp only [Option.getD_some]
    ring
  | none =>
    obtain ⟨hl, hg⟩ := segmentLengths_ring nrm (p := p) (r := r)
    obtain ⟨L, hL⟩ : ∃ L, L = segmentLengths nrm ((p :: r) ++ [p]) := ⟨_, rfl⟩
    obtain ⟨q, hq⟩ : ∃ q, q = p :: r := ⟨_, rfl⟩
    have hq1 : 0 < q.length := by rw [hq]; simp
    rw [← hL] at hl hg
    rw [← hq] at hl hg ⊢
    simp only [← hL] at h
    have hlast : L.getLast? = some (nrm (cyc q (q.length - 1 + 1) - cyc q (q.length - 1))) := by
      rw [List.getLast?_eq_getElem?, hl]
      exact hg _ (by omega)
    rw [hlast] at h
    simp only [Except.ok.injEq] at h
    subst h
    refine ⟨by simp [hl], ?_⟩
    intro i hi
    rw [List.getD_eq_getElem?_getD, List.getElem?_map, List.getElem?_zipWith, hg i hi]
    have hprev : (nrm (cyc q (q.length - 1 + 1) - cyc q (q.length - 1)) :: L)[i]? =
        some (nrm (cyc q i - cyc q (i + q.length - 1))) := by
      cases i with
      | zero =>
        rw [List.getElem?_cons_zero, Nat.sub_add_cancel hq1, Nat.zero_add]
        congr 3
        have := cyc_add_length q 0
        rwa [Nat.zero_add] at this
      | succ j =>
        rw [List.getElem?_cons_succ, hg j (by omega)]
        have : j + 1 + q.length - 1 = j + q.length := by omega
        rw [this, cyc_add_length]
    rw [hprev]
    simp only [Option.map_some, Option.getD_some]
    rw [max_comm, mul_comm]

theorem line_calls (nt : List ℕ) (a b : ℕ) (ha : nt.getLast? = some a) (hb : nt.head? = some b) :
    ((nt.dropLast.zip nt.tail).map fun ab : ℕ × ℕ => (GmshCall.addLine ab.1 ab.2 : GmshCall K)) ++ [.addLine a b] =
      (List.range nt.length).map fun i => .addLine (nt.getD i 0) (nt.getD ((i + 1) % nt.length) 0) := by
  have hpos : 0 < nt.length := by
    cases nt with
    | nil => simp at hb
    | cons => simp
  apply List.ext_getElem?
  intro i
  rw [List.getElem?_map]
  by_cases hi : i < nt.length
  · rw [List.getElem?_range hi, Option.map_some]
    by_cases hi' : i + 1 < nt.length
    · rw [List.getElem?_append_left (by simp; omega), List.getElem?_map]
      rw [List.getElem?_eq_getElem (by simp; omega : i < (nt.dropLast.zip nt.tail).length)]
      simp only [List.getElem_zip, List.getElem_dropLast, List.getElem_tail, Option.map_some]
      rw [Nat.mod_eq_of_lt hi', List.getD_eq_getElem?_getD, List.getD_eq_getElem?_getD,
        List.getElem?_eq_getElem hi, List.getElem?_eq_getElem hi']
      rfl
    · have hi1 : i = nt.length - 1 := by omega
      rw [List.getElem?_append_right (by simp; omega)]
      have h0 : i - ((nt.dropLast.zip nt.tail).map fun ab : ℕ × ℕ =>
          (GmshCall.addLine ab.1 ab.2 : GmshCall K)).length = 0 := by simp; omega
      rw [h0]
      have h1 : (i + 1) % nt.length = 0 := by
        rw [show i + 1 = nt.length by omega, Nat.mod_self]
      rw [List.head?_eq_getElem?] at hb
      rw [h1, List.getD_eq_getElem?_getD, List.getD_eq_getElem?_getD, hi1, ← List.getLast?_eq_getElem?, ha, hb]
      rfl
  · rw [List.getElem?_eq_none (by simp; omega), List.getElem?_eq_none (by simp; omega)]
    rfl

theorem addCurveLoop_outline {pts : List (V3 K)} (hne : pts ≠ []) {celltype : String}
    {cellsize : Option K} {tr tr' : List (GmshCall K)} {loop : ℕ}
    (h : addCurveLoop g nrm (pts ++ pts.head?.toList) celltype cellsize tr = (.ok loop, tr')) :
    ∃ calls, tr' = tr ++ calls ∧ ∃ sizes, SizesAt nrm pts celltype cellsize sizes ∧
      Outline g tr pts sizes calls loop := by
  obtain ⟨p, r, hpr⟩ := List.exists_cons_of_ne_nil hne
  have hhead : pts ++ pts.head?.toList = pts ++ [p] := by rw [hpr]; rfl
  rw [hhead] at h
  unfold addCurveLoop at h
  obtain ⟨sizes, t1, h1, k1⟩ := Gm.bind_ok.1 h
  obtain ⟨hsz, ht1⟩ := Gm.lift_ok.1 h1
  obtain rfl : tr = t1 := ht1.symm
  obtain ⟨nt, t2, h2, k2⟩ := Gm.bind_ok.1 k1
  obtain ⟨lt, t3, h3, k3⟩ := Gm.bind_ok.1 k2
  clear h k1 k2 h1
  rename' k3 => h
  rw [hpr] at hsz
  have hS := meshSizes_ok nrm hsz
  rw [← hpr] at hS
  obtain ⟨rfl, hnl, hnt⟩ := Gm.each_tags h2
  obtain ⟨rfl, hll, hlt⟩ := Gm.each_tags h3
  rw [List.dropLast_concat] at *
  have hzl : (pts.zip sizes).length = pts.length := by simp [hS.1]
  rw [hzl] at hnl
  cases ha : nt.getLast? with
  | none => rw [ha] at h; simp [Gm.raise] at h
  | some a =>
  cases hb : nt.head? with
  | none => rw [ha, hb] at h; simp [Gm.raise] at h
  | some b =>
  rw [ha, hb] at h
  simp only at h
  obtain ⟨tag, t4, h4, h5⟩ := Gm.bind_ok.1 h
  obtain ⟨_, rfl, rfl⟩ := Gm.call_ok.1 h4
  obtain ⟨_, rfl, rfl⟩ := Gm.call_ok.1 h5
  obtain ⟨A, hA⟩ : ∃ A : List (GmshCall K), A = (pts.zip sizes).map fun ps => GmshCall.addPoint ps.1 ps.2 := ⟨_, rfl⟩
  obtain ⟨B, hB⟩ : ∃ B : List (GmshCall K), B = (nt.dropLast.zip nt.tail).map fun ab : ℕ × ℕ =>
    GmshCall.addLine ab.1 ab.2 := ⟨_, rfl⟩
  have hAl : A.length = pts.length := by rw [hA, List.length_map, hzl]
  have hpos : 0 < pts.length := by rw [hpr]; simp
  have hBl : B.length = pts.length - 1 := by rw [hB]; simp [hnl]
  have hll' : lt.length = pts.length - 1 := by rw [hll, ← hBl, hB, List.length_map]
  have hC := line_calls (K := K) nt a b ha hb
  rw [← hB, hnl] at hC
  simp only [← hA, ← hB] at hnt hlt ⊢
  obtain ⟨tg, htg⟩ : ∃ tg, tg = g.tag (tr ++ A ++ B) (.addLine a b) := ⟨_, rfl⟩
  rw [← htg]
  refine ⟨A ++ (B ++ [GmshCall.addLine a b]) ++ [GmshCall.addCurveLoop (lt ++ [tg])], by simp, sizes, hS, nt, lt ++ [tg], hnl,
    by simp [hll']; omega, by rw [hA, hC], ?_, ?_⟩
  · intro i hi
    constructor
    · have htake : (A ++ (B ++ [GmshCall.addLine a b]) ++ [GmshCall.addCurveLoop (lt ++ [tg])]).take i = A.take i := by
        rw [List.append_assoc, List.take_append_of_le_length (by omega)]
      rw [htake]
      obtain ⟨z, hz⟩ : ∃ z, (pts.zip sizes)[i]? = some z :=
        ⟨_, List.getElem?_eq_getElem (by rw [hzl]; exact hi)⟩
      have hAi : A[i]? = some (GmshCall.addPoint z.1 z.2) := by
        rw [hA, List.getElem?_map, hz]; rfl
      rw [List.getD_eq_getElem?_getD, List.getD_eq_getElem?_getD, hnt i _ hz, List.append_assoc,
        List.getElem?_append_left (by omega), hAi]
      rfl
    · have hL : A ++ (B ++ [GmshCall.addLine a b]) ++ [GmshCall.addCurveLoop (lt ++ [tg])] =
          A ++ ((B ++ [GmshCall.addLine a b]) ++ [GmshCall.addCurveLoop (lt ++ [tg])]) := by simp
      have htake : (A ++ (B ++ [GmshCall.addLine a b]) ++ [GmshCall.addCurveLoop (lt ++ [tg])]).take (pts.length + i) =
          A ++ B.take i := by
        rw [hL, ← hAl, List.take_length_add_append, List.append_assoc,
          List.take_append_of_le_length (by omega)]
      have hget : (A ++ (B ++ [GmshCall.addLine a b]) ++ [GmshCall.addCurveLoop (lt ++ [tg])])[pts.length + i]? =
          (B ++ [GmshCall.addLine a b])[i]? := by
        rw [hL, ← hAl, List.getElem?_append_right (by omega), Nat.add_sub_cancel_left,
          List.getElem?_append_left (by simp [hBl]; omega)]
      rw [htake, List.getD_eq_getElem?_getD, List.getD_eq_getElem?_getD, hget]
      by_cases hi' : i < pts.length - 1
      · have hz : (nt.dropLast.zip nt.tail)[i]? = some (nt.dropLast.zip nt.tail)[i] :=
          List.getElem?_eq_getElem (by simp [hnl]; omega)
        rw [List.getElem?_append_left (by omega), hlt i _ hz, List.getElem?_append_left (by omega)]
        have : B[i]? = some (.addLine (nt.dropLast.zip nt.tail)[i].1 (nt.dropLast.zip nt.tail)[i].2) := by
          rw [hB, List.getElem?_map, hz]; rfl
        rw [this]
        simp
      · have hie : i = pts.length - 1 := by omega
        rw [List.getElem?_append_right (by omega), hll', hie, Nat.sub_self,
          List.getElem?_append_right (by omega), hBl, Nat.sub_self, List.take_of_length_le (by omega)]
        simp [htg]
  · rw [List.dropLast_concat]
    simp

/-- Calls that do not build geometry. -/
def Spec.NotGeometric : GmshCall K → Prop
  | .addPoint _ _ | .addLine _ _ | .addCurveLoop _ | .addPlaneSurface _ | .cut _ _ => False
  | _ => True

theorem body_rest (celltype : String) (cellsize : Option K) (algorithm : K) (optimization : Option String)
    (dimTags : List (ℕ × ℕ)) :
    Gm.Only NotGeometric (Gm.bind (setSizes g cellsize) fun _ =>
      Gm.bind (Gm.call_ g (.setNumber "Mesh.Algorithm" algorithm)) fun _ =>
      Gm.bind (Gm.call_ g (.setNumber "General.Verbosity" 0)) fun _ =>
      Gm.bind (Gm.call_ g .synchronize) fun _ =>
      Gm.bind (if celltype = "quad" then Gm.each (fun (d : Nat × Nat) => Gm.call_ g (.setRecombine d.1 d.2)) dimTags
        else Gm.pure []) fun _ =>
      Gm.bind (Gm.call_ g (.generate 2)) fun _ =>
      Gm.bind (optimizeMesh g optimization) fun _ => convertMesh g) := by
  refine Gm.Only.bind ?_ fun _ => (Gm.Only.call trivial _).bind fun _ => (Gm.Only.call trivial _).bind fun _ =>
    (Gm.Only.call trivial _).bind fun _ => Gm.Only.bind ?_ fun _ =>
    (Gm.Only.call trivial _).bind fun _ => Gm.Only.bind ?_ fun _ => ?_
  · unfold setSizes
    split
    · exact Gm.Only.pure _
    · exact (Gm.Only.call trivial _).bind fun _ => (Gm.Only.call trivial _).bind fun _ =>
        (Gm.Only.call trivial _).bind fun _ => Gm.Only.call trivial _
  · split
    · exact Gm.Only.each (fun _ => Gm.Only.call trivial _) _
    · exact Gm.Only.pure _
  · unfold optimizeMesh
    split
    · split
      · exact Gm.Only.pure _
      · exact Gm.Only.call trivial _
    · exact Gm.Only.pure _
  · unfold convertMesh
    refine (Gm.Only.call trivial _).bind fun _ => (Gm.Only.call trivial _).bind fun _ =>
      (Gm.Only.lift _).bind fun _ => (Gm.Only.each (fun e => ?_) _).bind fun _ => Gm.Only.pure _
    unfold convertElements
    exact (Gm.Only.lift _).bind fun _ => (Gm.Only.call trivial _).bind fun _ =>
      (Gm.Only.lift _).bind fun _ => Gm.Only.pure _

theorem tryFinally_ok {α : Type} {m : Gm K α} {tr tr' : List (GmshCall K)} {a : α}
    (h : Gm.tryFinally m (closeSession g) tr = (.ok a, tr')) :
    ∃ t, m tr = (.ok a, t) ∧ tr' = t ++ [.clear, .finalize] := by
  unfold Gm.tryFinally at h
  rcases h1 : m tr with ⟨r, t⟩
  rw [h1] at h
  simp only at h
  rcases h2 : closeSession g t with ⟨r2, t2⟩
  rw [h2] at h
  cases r2 with
  | error e => simp at h
  | ok u =>
    simp only [Prod.mk.injEq] at h
    obtain ⟨rfl, rfl⟩ := h
    refine ⟨t, rfl, ?_⟩
    obtain ⟨_, s, k1, k2⟩ := Gm.bind_ok.1 h2
    obtain ⟨_, _, rfl⟩ := Gm.call_ok.1 k1
    obtain ⟨_, _, rfl⟩ := Gm.call_ok.1 k2
    simp

/-- The parts of a successful run that uses Gmsh. -/
theorem polygon_parts {shell : Ring K} {pts : List (V3 K)} (hs : Encloses shell pts) {holes : List (Ring K)}
    {hp : List (List (V3 K))} (hh : List.Forall₂ Encloses holes hp) {celltype : String}
    (hc : celltype = "quad" ∨ celltype = "triangle") {cellsize : Option K} {algorithm : K}
    {optimization : Option String} {engine : String} {tr tr' : List (GmshCall K)} {M : CellMesh K}
    (h : polygon g nrm shell holes (some celltype) cellsize algorithm optimization engine tr = (.ok M, tr')) :
    ∃ dimTags t1 rest, outline g nrm (pts ++ pts.head?.toList) (hp.map fun pts => pts ++ pts.head?.toList) celltype
        cellsize engine (tr ++ [.initialize]) = (.ok dimTags, t1) ∧
      tr' = t1 ++ rest ++ [.clear, .finalize] ∧ (∀ c ∈ rest, NotGeometric c) ∧
      ∃ t2, convertMesh g t2 = (.ok M, t1 ++ rest) := by
  rw [polygon_run g nrm hs hh] at h
  have hd : defaultCelltype (some celltype) (hp.map fun pts => pts ++ pts.head?.toList) = celltype := by
    rcases hc with rfl | rfl <;> simp [defaultCelltype]
  have hne : celltype ≠ "polygon" := by rcases hc with rfl | rfl <;> decide
  simp only [hd] at h
  rw [if_neg hne, if_pos hc] at h
  obtain ⟨t, h1, rfl⟩ := tryFinally_ok g h
  unfold gmshBody at h1
  obtain ⟨_, s1, k1, k2⟩ := Gm.bind_ok.1 h1
  obtain ⟨_, _, rfl⟩ := Gm.call_ok.1 k1
  obtain ⟨dimTags, t1, k3, k4⟩ := Gm.bind_ok.1 k2
  obtain ⟨rest, r1, r2⟩ := body_rest g celltype cellsize algorithm optimization dimTags t1
  rw [k4] at r1
  simp only at r1
  subst r1
  refine ⟨dimTags, t1, rest, k3, rfl, r2, ?_⟩
  obtain ⟨_, _, _, m1⟩ := Gm.bind_ok.1 k4
  obtain ⟨_, _, _, m2⟩ := Gm.bind_ok.1 m1
  obtain ⟨_, _, _, m3⟩ := Gm.bind_ok.1 m2
  obtain ⟨_, _, _, m4⟩ := Gm.bind_ok.1 m3
  obtain ⟨_, _, _, m5⟩ := Gm.bind_ok.1 m4
  obtain ⟨_, _, _, m6⟩ := Gm.bind_ok.1 m5
  obtain ⟨_, t2, _, m7⟩ := Gm.bind_ok.1 m6
  exact ⟨t2, m7⟩

theorem encloses_ne : ∀ {holes : List (Ring K)} {hp : List (List (V3 K))},
    List.Forall₂ Encloses holes hp → ∀ {q}, q ∈ hp → q ≠ []
  | _, _, .nil, q, hq => by simp at hq
  | _, _, .cons h1 h2, q, hq => by
    rcases List.mem_cons.1 hq with rfl | hq
    · exact h1.1
    · exact encloses_ne h2 hq

/-- **C82.** With the default engine, a successful call asks Gmsh for the closed outline of the shell and of each
hole, in this order, with the sizes of `SizesAt`, and for one plane surface bounded by these loops; no other geometry
is made. -/
theorem C82_outline_gmsh {shell : Ring K} {pts : List (V3 K)} (hs : Encloses shell pts) {holes : List (Ring K)}
    {hp : List (List (V3 K))} (hh : List.Forall₂ Encloses holes hp) {celltype : String}
    (hc : celltype = "quad" ∨ celltype = "triangle") {cellsize : Option K} {algorithm : K}
    {optimization : Option String} {tr tr' : List (GmshCall K)} {M : CellMesh K}
    (h : polygon g nrm shell holes (some celltype) cellsize algorithm optimization "gmsh" tr = (.ok M, tr')) :
    ∃ (outlines : List (List (GmshCall K))) (loops : List ℕ) (rest : List (GmshCall K)),
      tr' = tr ++ [.initialize] ++ outlines.flatten ++ [.addPlaneSurface loops] ++ rest ∧
      outlines.length = hp.length + 1 ∧ loops.length = hp.length + 1 ∧
      (∀ (i : ℕ) ring, (pts :: hp)[i]? = some ring → ∃ calls loop sizes, outlines[i]? = some calls ∧
        loops[i]? = some loop ∧ SizesAt nrm ring celltype cellsize sizes ∧
        Outline g (tr ++ [.initialize] ++ (outlines.take i).flatten) ring sizes calls loop) ∧
      ∀ c ∈ rest, NotGeometric c := by
  obtain ⟨dimTags, t1, rest, h1, rfl, h2, _⟩ := polygon_parts g nrm hs hh hc h
  unfold outline at h1
  rw [if_pos rfl] at h1
  obtain ⟨loops, s, k1, k2⟩ := Gm.bind_ok.1 h1
  obtain ⟨tag, s', k3, k4⟩ := Gm.bind_ok.1 k2
  obtain ⟨_, _, rfl⟩ := Gm.call_ok.1 k3
  obtain ⟨_, rfl⟩ := Gm.pure_ok.1 k4
  have hmap : (pts ++ pts.head?.toList) :: (hp.map fun pts => pts ++ pts.head?.toList) =
      (pts :: hp).map fun pts => pts ++ pts.head?.toList := rfl
  rw [hmap] at k1
  have hne : ∀ q ∈ pts :: hp, q ≠ [] := by
    intro q hq
    rcases List.mem_cons.1 hq with rfl | hq
    · exact hs.1
    · exact encloses_ne hh hq
  obtain ⟨css, rfl, e1, e2, e3⟩ := Gm.each_rel (fun t ring calls loop => ∀ q ∈ pts :: hp,
      ring = q ++ q.head?.toList → ∃ sizes, SizesAt nrm q celltype cellsize sizes ∧
        Outline g t q sizes calls loop) (by
    intro a ha t b t' hrun
    obtain ⟨q, hq, rfl⟩ := List.mem_map.1 ha
    obtain ⟨p, r, hpr⟩ := List.exists_cons_of_ne_nil (hne q hq)
    obtain ⟨calls, g1, sizes, g2, g3⟩ := addCurveLoop_outline g nrm (hne q hq) hrun
    refine ⟨calls, g1, ?_⟩
    intro q' hq' he
    have : q' = q := by
      obtain ⟨p', r', hpr'⟩ := List.exists_cons_of_ne_nil (hne q' hq')
      rw [hpr, hpr'] at he
      simp only [List.head?_cons, Option.toList_some] at he
      have := List.append_inj' he rfl
      rw [hpr, hpr', this.1]
    subst this
    exact ⟨sizes, g2, g3⟩) k1
  refine ⟨css, loops, rest ++ [.clear, .finalize], by simp, by simpa using e1, by simpa using e2, ?_, ?_⟩
  · intro i ring hi
    obtain ⟨c, b, f1, f2, f3⟩ := e3 i (ring ++ ring.head?.toList) (by
      rw [List.getElem?_map, hi]; rfl)
    obtain ⟨sizes, f4, f5⟩ := f3 ring (List.mem_of_getElem? hi) rfl
    exact ⟨c, b, sizes, f1, f2, f4, f5⟩
  · intro c hc
    rcases List.mem_append.1 hc with hc | hc
    · exact h2 c hc
    · simp only [List.mem_cons, List.not_mem_nil, or_false] at hc
      rcases hc with rfl | rfl <;> trivial

/-- Gmsh was asked, after the calls `tr`, for the outline of `pts` and for a plane surface `tag` inside it. -/
def Spec.Surface (g : Gmsh K) (nrm : (Fin 3 → K) → K) (celltype : String) (cellsize : Option K)
    (tr : List (GmshCall K)) (pts : List (Fin 3 → K)) (calls : List (GmshCall K)) (tag : ℕ) : Prop :=
  ∃ calls' loop sizes, calls = calls' ++ [.addPlaneSurface [loop]] ∧ SizesAt nrm pts celltype cellsize sizes ∧
    Outline g tr pts sizes calls' loop ∧ tag = g.tag (tr ++ calls') (.addPlaneSurface [loop])

theorem addSurface_ok {pts : List (V3 K)} (hne : pts ≠ []) {celltype : String}
    {cellsize : Option K} {tr tr' : List (GmshCall K)} {d : ℕ × ℕ}
    (h : addSurface g nrm (pts ++ pts.head?.toList) celltype cellsize tr = (.ok d, tr')) :
    ∃ calls, tr' = tr ++ calls ∧ d.1 = 2 ∧ Surface g nrm celltype cellsize tr pts calls d.2 := by
  obtain ⟨loop, t, h1, h2⟩ := Gm.bind_ok.1 h
  obtain ⟨calls, rfl, sizes, g2, g3⟩ := addCurveLoop_outline g nrm hne h1
  obtain ⟨tag, s, h3, h4⟩ := Gm.bind_ok.1 h2
  obtain ⟨_, rfl, rfl⟩ := Gm.call_ok.1 h3
  obtain ⟨rfl, rfl⟩ := Gm.pure_ok.1 h4
  exact ⟨calls ++ [.addPlaneSurface [loop]], by simp, rfl, calls, loop, sizes, rfl, g2, g3, rfl⟩

/-- **C82.** With OpenCascade, a successful call asks for one plane surface per ring and cuts those of the holes out
of that of the shell; no other geometry is made. -/
theorem C82_outline_occ {shell : Ring K} {pts : List (V3 K)} (hs : Encloses shell pts) {holes : List (Ring K)}
    {hp : List (List (V3 K))} (hh : List.Forall₂ Encloses holes hp) {celltype : String}
    (hc : celltype = "quad" ∨ celltype = "triangle") {cellsize : Option K} {algorithm : K}
    {optimization : Option String} {tr tr' : List (GmshCall K)} {M : CellMesh K}
    (h : polygon g nrm shell holes (some celltype) cellsize algorithm optimization "occ" tr = (.ok M, tr')) :
    ∃ (first : List (GmshCall K)) (outlines : List (List (GmshCall K))) (tag : ℕ) (tags : List ℕ)
      (rest : List (GmshCall K)),
      tr' = tr ++ [.initialize] ++ first ++ outlines.flatten ++
        (if hp = [] then [] else [.cut [(2, tag)] (tags.map fun t => (2, t))]) ++ rest ∧
      Surface g nrm celltype cellsize (tr ++ [.initialize]) pts first tag ∧
      outlines.length = hp.length ∧ tags.length = hp.length ∧
      (∀ (i : ℕ) ring, hp[i]? = some ring → ∃ calls t, outlines[i]? = some calls ∧ tags[i]? = some t ∧
        Surface g nrm celltype cellsize (tr ++ [.initialize] ++ first ++ (outlines.take i).flatten) ring calls t) ∧
      ∀ c ∈ rest, NotGeometric c := by
  obtain ⟨dimTags, t1, rest, h1, rfl, h2, _⟩ := polygon_parts g nrm hs hh hc h
  have hrest : ∀ c ∈ rest ++ [.clear, .finalize], NotGeometric c := by
    intro c hc
    rcases List.mem_append.1 hc with hc | hc
    · exact h2 c hc
    · simp only [List.mem_cons, List.not_mem_nil, or_false] at hc
      rcases hc with rfl | rfl <;> trivial
  unfold outline at h1
  rw [if_neg (by decide), if_pos rfl] at h1
  obtain ⟨d, s, k1, k2⟩ := Gm.bind_ok.1 h1
  obtain ⟨first, rfl, hd, hS⟩ := addSurface_ok g nrm hs.1 k1
  have hdd : d = (2, d.2) := by rw [← hd]
  by_cases hhp : hp = []
  · subst hhp
    rw [List.map_nil, if_pos rfl] at k2
    obtain ⟨_, rfl⟩ := Gm.pure_ok.1 k2
    exact ⟨first, [], d.2, [], rest ++ [.clear, .finalize], by simp, hS, rfl, rfl, by simp, hrest⟩
  · rw [if_neg (by simpa using hhp)] at k2
    obtain ⟨hs', s, k3, k4⟩ := Gm.bind_ok.1 k2
    obtain ⟨_, _, rfl⟩ := Gm.call_ok.1 k4
    obtain ⟨css, rfl, e1, e2, e3⟩ := Gm.each_rel (fun t ring calls (d : ℕ × ℕ) => d.1 = 2 ∧ ∀ q ∈ hp,
        ring = q ++ q.head?.toList → Surface g nrm celltype cellsize t q calls d.2) (by
      intro a ha t b t' hrun
      obtain ⟨q, hq, rfl⟩ := List.mem_map.1 ha
      obtain ⟨p, r, hpr⟩ := List.exists_cons_of_ne_nil (encloses_ne hh hq)
      obtain ⟨calls, g1, g2, g3⟩ := addSurface_ok g nrm (encloses_ne hh hq) hrun
      refine ⟨calls, g1, g2, ?_⟩
      intro q' hq' he
      have : q' = q := by
        obtain ⟨p', r', hpr'⟩ := List.exists_cons_of_ne_nil (encloses_ne hh hq')
        rw [hpr, hpr'] at he
        simp only [List.head?_cons, Option.toList_some] at he
        have := List.append_inj' he rfl
        rw [hpr, hpr', this.1]
      subst this
      exact g3) k3
    have hl : hp.length = hs'.length := by simpa using e2.symm
    have htags : hs' = (hs'.map (·.2)).map fun t => (2, t) := by
      rw [List.map_map]
      apply List.ext_getElem?
      intro i
      rw [List.getElem?_map]
      by_cases hi : i < hs'.length
      · obtain ⟨c, b, f1, f2, f3, _⟩ := e3 i (hp[i]'(by omega) ++ (hp[i]'(by omega)).head?.toList) (by
          rw [List.getElem?_map, List.getElem?_eq_getElem (by omega)]; rfl)
        rw [f2]
        simp [← f3]
      · rw [List.getElem?_eq_none (by omega)]; rfl
    refine ⟨first, css, d.2, hs'.map (·.2), rest ++ [.clear, .finalize], ?_, hS, by simpa using e1, by simpa using e2, ?_,
      hrest⟩
    · rw [if_neg hhp, ← htags, ← hdd]
      simp
    · intro i ring hi
      obtain ⟨c, b, f1, f2, _, f3⟩ := e3 i (ring ++ ring.head?.toList) (by
        rw [List.getElem?_map, hi]; rfl)
      exact ⟨c, b.2, f1, by rw [List.getElem?_map, f2]; rfl, f3 ring (List.mem_of_getElem? hi) rfl⟩

end C82

section C87
variable {K : Type} [Field K] [LinearOrder K]
variable (g : Gmsh K) (nrm : V3 K → K)

theorem reshape3_ok : ∀ {l : List K} {P : List (V3 K)}, reshape3 l = .ok P →
    l.length = 3 * P.length ∧ ∀ i p, P[i]? = some p →
      l[3 * i]? = some (p 0) ∧ l[3 * i + 1]? = some (p 1) ∧ l[3 * i + 2]? = some (p 2)
  | [], P, h => by
    simp only [reshape3, Except.ok.injEq] at h
    subst h; simp
  | [_], P, h => by simp [reshape3] at h
  | [_, _], P, h => by simp [reshape3] at h
  | x :: y :: z :: rest, P, h => by
    simp only [reshape3] at h
    cases hr : reshape3 rest with
    | error e => rw [hr] at h; simp [Except.map] at h
    | ok Q =>
      rw [hr] at h
      simp only [Except.map, Except.ok.injEq] at h
      subst h
      obtain ⟨h1, h2⟩ := reshape3_ok hr
      refine ⟨by simp [h1]; omega, ?_⟩
      rintro (_ | i) p hp
      · simp at hp; subst hp; simp
      · simp only [List.getElem?_cons_succ] at hp
        obtain ⟨a, b, c⟩ := h2 i p hp
        refine ⟨?_, ?_, ?_⟩
        · rw [show 3 * (i + 1) = 3 * i + 1 + 1 + 1 by ring]; simpa using a
        · rw [show 3 * (i + 1) + 1 = 3 * i + 1 + 1 + 1 + 1 by ring]; simpa using b
        · rw [show 3 * (i + 1) + 2 = 3 * i + 2 + 1 + 1 + 1 by ring]; simpa using c

theorem reshapeRows_ok {n : ℕ} : ∀ {fuel : ℕ} {l : List ℕ} {rows : List (List ℕ)}, reshapeRows n fuel l = .ok rows →
    l.length = n * rows.length ∧ ∀ (m : ℕ) row, rows[m]? = some row → row.length = n ∧
      ∀ k < n, row[k]? = l[m * n + k]?
  | _, [], rows, h => by
    simp only [reshapeRows, Except.ok.injEq] at h
    subst h; simp
  | 0, _ :: _, rows, h => by simp [reshapeRows] at h
  | fuel + 1, a :: l, rows, h => by
    obtain ⟨L, hL⟩ : ∃ L, L = a :: l := ⟨_, rfl⟩
    simp only [reshapeRows] at h
    rw [← hL] at h ⊢
    by_cases hn : L.length < n
    · rw [if_pos hn] at h; simp at h
    · rw [if_neg hn] at h
      cases hr : reshapeRows n fuel (L.drop n) with
      | error e => rw [hr] at h; simp [Except.map] at h
      | ok Q =>
        rw [hr] at h
        simp only [Except.map, Except.ok.injEq] at h
        subst h
        obtain ⟨h1, h2⟩ := reshapeRows_ok hr
        rw [List.length_drop] at h1
        refine ⟨by rw [List.length_cons, Nat.mul_succ]; omega, ?_⟩
        rintro (_ | m) row hrow
        · simp at hrow; subst hrow
          refine ⟨by rw [List.length_take]; omega, ?_⟩
          intro k hk
          rw [List.getElem?_take, if_pos hk, Nat.zero_mul, Nat.zero_add]
        · simp only [List.getElem?_cons_succ] at hrow
          obtain ⟨r1, r2⟩ := h2 m row hrow
          refine ⟨r1, ?_⟩
          intro k hk
          rw [r2 k hk, List.getElem?_drop]
          congr 1
          rw [Nat.succ_mul]; omega

/-- The node with this tag is at `p`, according to the arrays returned by Gmsh. -/
def Spec.NodeAt (nodes : List ℕ × List K) (t : ℕ) (p : Fin 3 → K) : Prop :=
  ∃ i, nodes.1[i]? = some t ∧ nodes.2[3 * i]? = some (p 0) ∧ nodes.2[3 * i + 1]? = some (p 1) ∧
    nodes.2[3 * i + 2]? = some (p 2)

/-- The VTK type of a Gmsh surface element. -/
def Spec.SurfaceType (t vtk : ℕ) : Prop := t = 2 ∧ vtk = 5 ∨ t = 3 ∧ vtk = 9

theorem gmshToVtk_ok {t v : ℕ} (h : gmshToVtk t = .ok v) : SurfaceType t v := by
  unfold gmshToVtk at h
  split at h
  · next h1 => simp at h; exact Or.inl ⟨h1, h.symm⟩
  · split at h
    · next h1 => simp at h; exact Or.inr ⟨h1, h.symm⟩
    · simp at h

/-- What `convertMesh` has read and how it has used it. -/
theorem convertMesh_ok {t2 t' : List (GmshCall K)} {M : CellMesh K} (h : convertMesh g t2 = (.ok M, t')) :
    reshape3 (g.nodes t2).2 = .ok M.points ∧ t2 ++ [.getNodes, .getElements] <+: t' ∧
    ∃ rows : List (List (ℕ × List ℕ)), M.cells = rows.flatten ∧
      List.Forall₂ (fun (e : ℕ × List ℕ) cells => ∃ vtk rs, SurfaceType e.1 vtk ∧
          e.2.length = g.nodesPerElement e.1 * List.length rs ∧ cells = rs.map (fun row => (vtk, List.map (· - 1) row)) ∧
          ∀ (m : ℕ) row, rs[m]? = some row → row.length = g.nodesPerElement e.1 ∧
            ∀ k < g.nodesPerElement e.1, row[k]? = e.2[m * g.nodesPerElement e.1 + k]?)
        ((g.elements (t2 ++ [.getNodes])).filter fun e => e.1 ≠ 1 ∧ e.1 ≠ 15) rows := by
  unfold convertMesh at h
  obtain ⟨nodes, s1, h1, k1⟩ := Gm.bind_ok.1 h
  obtain ⟨_, rfl, rfl⟩ := Gm.call_ok.1 h1
  obtain ⟨els, s2, h2, k2⟩ := Gm.bind_ok.1 k1
  obtain ⟨_, rfl, rfl⟩ := Gm.call_ok.1 h2
  obtain ⟨P, s3, h3, k3⟩ := Gm.bind_ok.1 k2
  obtain ⟨h3', rfl⟩ := Gm.lift_ok.1 h3
  obtain ⟨cells, s4, h4, k4⟩ := Gm.bind_ok.1 k3
  obtain ⟨rfl, rfl⟩ := Gm.pure_ok.1 k4
  obtain ⟨css, rfl, e1, e2, e3⟩ := Gm.each_rel (fun _ (e : ℕ × List ℕ) _ cells => ∃ vtk rs, SurfaceType e.1 vtk ∧
          e.2.length = g.nodesPerElement e.1 * List.length rs ∧ cells = rs.map (fun row => (vtk, List.map (· - 1) row)) ∧
          ∀ (m : ℕ) row, rs[m]? = some row → row.length = g.nodesPerElement e.1 ∧
            ∀ k < g.nodesPerElement e.1, row[k]? = e.2[m * g.nodesPerElement e.1 + k]?) (by
      intro e _ t b t' hrun
      unfold convertElements at hrun
      obtain ⟨vtk, q1, m1, n1⟩ := Gm.bind_ok.1 hrun
      obtain ⟨m1', rfl⟩ := Gm.lift_ok.1 m1
      obtain ⟨n, q2, m2, n2⟩ := Gm.bind_ok.1 n1
      obtain ⟨_, rfl, rfl⟩ := Gm.call_ok.1 m2
      obtain ⟨rs, q3, m3, n3⟩ := Gm.bind_ok.1 n2
      obtain ⟨m3', rfl⟩ := Gm.lift_ok.1 m3
      obtain ⟨rfl, rfl⟩ := Gm.pure_ok.1 n3
      obtain ⟨o1, o2⟩ := reshapeRows_ok m3'
      exact ⟨_, rfl, vtk, rs, gmshToVtk_ok m1', o1, rfl, o2⟩) h4
  refine ⟨h3', ⟨css.flatten, by simp⟩, cells, rfl, ?_⟩
  rw [List.forall₂_iff_get]
  refine ⟨e2.symm, ?_⟩
  intro i hi hi'
  obtain ⟨c, b, f1, f2, f3⟩ := e3 i _ (List.getElem?_eq_getElem hi)
  have : b = cells.get ⟨i, hi'⟩ := by
    rw [List.getElem?_eq_getElem hi'] at f2
    simpa using f2.symm
  subst this
  exact f3

theorem forall₂_left {α β : Type} {R : α → β → Prop} : ∀ {l : List α} {m : List β}, List.Forall₂ R l m →
    ∀ {a}, a ∈ l → ∃ b ∈ m, R a b
  | _, _, .nil, a, h => by simp at h
  | _, _, .cons h1 h2, a, h => by
    rcases List.mem_cons.1 h with rfl | h
    · exact ⟨_, by simp, h1⟩
    · obtain ⟨b, hb, hr⟩ := forall₂_left h2 h
      exact ⟨b, by simp [hb], hr⟩

theorem forall₂_right {α β : Type} {R : α → β → Prop} : ∀ {l : List α} {m : List β}, List.Forall₂ R l m →
    ∀ {b}, b ∈ m → ∃ a ∈ l, R a b
  | _, _, .nil, b, h => by simp at h
  | _, _, .cons h1 h2, b, h => by
    rcases List.mem_cons.1 h with rfl | h
    · exact ⟨_, by simp, h1⟩
    · obtain ⟨a, ha, hr⟩ := forall₂_right h2 h
      exact ⟨a, by simp [ha], hr⟩

/-- **C87 (partial).** The mesh returned by a successful call has the coordinates of Gmsh as points and, for every triangle
or quadrilateral of Gmsh, a cell of the same type through its nodes — provided Gmsh numbers its nodes 1, 2, 3, ... in
the order of the array of coordinates.  Missing: other numberings, see `C87_numbering_refuted`. -/
theorem C87_conversion_partial {shell : Ring K} {pts : List (V3 K)} (hs : Encloses shell pts) {holes : List (Ring K)}
    {hp : List (List (V3 K))} (hh : List.Forall₂ Encloses holes hp) {celltype : String}
    (hc : celltype = "quad" ∨ celltype = "triangle") {cellsize : Option K} {algorithm : K}
    {optimization : Option String} {engine : String} {tr tr' : List (GmshCall K)} {M : CellMesh K}
    (h : polygon g nrm shell holes (some celltype) cellsize algorithm optimization engine tr = (.ok M, tr')) :
    ∃ t, t ++ [.getNodes, .getElements] <+: tr' ∧
      (g.nodes t).2.length = 3 * M.points.length ∧
      ((g.nodes t).1 = (List.range M.points.length).map (· + 1) →
        ∀ e ∈ g.elements (t ++ [.getNodes]), e.1 ≠ 1 → e.1 ≠ 15 → (∀ v ∈ e.2, 1 ≤ v ∧ v ≤ M.points.length) →
          ∃ vtk, SurfaceType e.1 vtk ∧ ∀ m, m * g.nodesPerElement e.1 < e.2.length →
            ∃ cell ∈ M.cells, cell.1 = vtk ∧ cell.2.length = g.nodesPerElement e.1 ∧
              ∀ k < g.nodesPerElement e.1, ∃ v w p, e.2[m * g.nodesPerElement e.1 + k]? = some v ∧
                cell.2[k]? = some w ∧ M.points[w]? = some p ∧ NodeAt (g.nodes t) v p) ∧
      (∀ cell ∈ M.cells, ∃ e ∈ g.elements (t ++ [.getNodes]), ∃ m, SurfaceType e.1 cell.1 ∧
        cell.2.length = g.nodesPerElement e.1 ∧ ∀ k < g.nodesPerElement e.1, ∃ v w,
          e.2[m * g.nodesPerElement e.1 + k]? = some v ∧ cell.2[k]? = some w ∧ w = v - 1) := by
  obtain ⟨_, t1, rest, _, rfl, _, t2, hconv⟩ := polygon_parts g nrm hs hh hc h
  obtain ⟨h1, h2, rows, h3, h4⟩ := convertMesh_ok g hconv
  obtain ⟨p1, p2⟩ := reshape3_ok h1
  refine ⟨t2, h2.trans ⟨_, rfl⟩, p1, ?_, ?_⟩
  · intro hnum e he he1 he15 hv
    have hef : e ∈ (g.elements (t2 ++ [.getNodes])).filter fun e => e.1 ≠ 1 ∧ e.1 ≠ 15 := by
      rw [List.mem_filter]; exact ⟨he, by simp [he1, he15]⟩
    obtain ⟨cells, hcells, vtk, rs, q1, q2, q3, q4⟩ := forall₂_left h4 hef
    refine ⟨vtk, q1, ?_⟩
    intro m hm
    have hmr : m < rs.length := by
      rw [q2, mul_comm] at hm
      exact lt_of_mul_lt_mul_left hm (Nat.zero_le _)
    obtain ⟨r1, r2⟩ := q4 m _ (List.getElem?_eq_getElem hmr)
    refine ⟨(vtk, rs[m].map (· - 1)), ?_, rfl, by simpa using r1, ?_⟩
    · rw [h3]
      refine List.mem_flatten.2 ⟨_, hcells, ?_⟩
      rw [q3]
      exact List.mem_map.2 ⟨_, List.getElem_mem hmr, rfl⟩
    · intro k hk
      have hrk : rs[m][k]? = some (rs[m][k]'(by omega)) := List.getElem?_eq_getElem (by omega)
      obtain ⟨v, hvv⟩ : ∃ v, v = rs[m][k]'(by omega) := ⟨_, rfl⟩
      rw [← hvv] at hrk
      have hev := (r2 k hk).symm.trans hrk
      obtain ⟨v1, v2⟩ := hv v (List.mem_of_getElem? hev)
      obtain ⟨p, hp⟩ : ∃ p, M.points[v - 1]? = some p := ⟨_, List.getElem?_eq_getElem (by omega)⟩
      refine ⟨v, v - 1, p, hev, ?_, hp, v - 1, ?_, p2 _ p hp⟩
      · simp only [List.getElem?_map, hrk]; rfl
      · rw [hnum, List.getElem?_map, List.getElem?_range (by omega)]
        simp only [Option.map_some, Option.some.injEq]
        omega
  · intro cell hcell
    rw [h3] at hcell
    obtain ⟨row, hrow, hin⟩ := List.mem_flatten.1 hcell
    obtain ⟨e, hmem, vtk, rs, q1, q2, q3, q4⟩ := forall₂_right h4 hrow
    rw [q3] at hin
    obtain ⟨r, hr, rfl⟩ := List.mem_map.1 hin
    obtain ⟨m, hm, rfl⟩ := List.getElem_of_mem hr
    obtain ⟨r1, r2⟩ := q4 m _ (List.getElem?_eq_getElem hm)
    refine ⟨e, (List.mem_filter.1 hmem).1, m, q1, by simpa using r1, ?_⟩
    intro k hk
    have hrk : rs[m][k]? = some (rs[m][k]'(by omega)) := List.getElem?_eq_getElem (by omega)
    refine ⟨_, _, (r2 k hk).symm.trans hrk, by simp only [List.getElem?_map, hrk]; rfl, rfl⟩

/-- A Gmsh whose nodes are numbered 1, 2, 4. -/
def gapGmsh : Gmsh ℚ where
  fails := fun _ _ => none
  tag := fun tr _ => tr.length
  dimTags := fun _ _ => []
  nodes := fun _ => ([1, 2, 4], [0, 0, 0, 1, 0, 0, 0, 1, 0])
  elements := fun _ => [(1, [1, 2]), (2, [1, 2, 4])]
  nodesPerElement := fun _ => 3

/-- **C87 refuted** for any numbering: the tags returned with the coordinates are ignored, so that with a gap in the
numbering the triangle 1, 2, 4 of a mesh of three nodes refers to a point that does not exist. -/
theorem C87_numbering_refuted :
    (polygon gapGmsh (fun _ => 1) (.two [(0, 0), (1, 0), (0, 1)]) [] (some "triangle") none 6 none "gmsh" []).1.toOption.map
      (fun M => (M.points.length, M.cells)) = some (3, [(5, [0, 1, 3])]) := by
  decide +kernel

/-- The same Gmsh with nodes numbered 1, 2, 3: the run of C82 and C87 exists. -/
example : (polygon { gapGmsh with nodes := fun _ => ([1, 2, 3], [0, 0, 0, 1, 0, 0, 0, 1, 0]), elements := fun _ => [(2, [1, 2, 3])] }
    (fun _ => 1) (.two [(0, 0), (1, 0), (0, 1)]) [] (some "triangle") none 6 none "gmsh" []).1.toOption.map
      (fun M => (M.points.length, M.cells)) = some (3, [(5, [0, 1, 2])]) := by
  decide +kernel

end C87

section C93
variable {K : Type} [Field K] [LinearOrder K]
variable (g : Gmsh K) (nrm : V3 K → K)

/-- The surfaces made by a call, given the calls before it. -/
def Spec.madeBy (g : Gmsh K) (before : List (GmshCall K)) : GmshCall K → List (ℕ × ℕ)
  | .addPlaneSurface loops => [(2, g.tag before (.addPlaneSurface loops))]
  | .cut a b => g.dimTags before (.cut a b)
  | _ => []

/-- A call that reads the mesh. -/
def Spec.Reads : GmshCall K → Prop
  | .getNodes => True
  | .getElements => True
  | .getElementProperties _ => True
  | _ => False

theorem each_calls {α : Type} {c : α → GmshCall K} : ∀ {l : List α} {tr tr' : List (GmshCall K)} {us : List Unit},
    Gm.each (fun a => Gm.call_ g (c a)) l tr = (.ok us, tr') → tr' = tr ++ l.map c
  | [], tr, tr', us, h => by
    obtain ⟨_, rfl⟩ := Gm.pure_ok.1 h
    simp
  | a :: l, tr, tr', us, h => by
    obtain ⟨_, t, h1, h2⟩ := Gm.bind_ok.1 h
    obtain ⟨_, _, rfl⟩ := Gm.call_ok.1 h1
    obtain ⟨_, t', h3, h4⟩ := Gm.bind_ok.1 h2
    obtain ⟨_, rfl⟩ := Gm.pure_ok.1 h4
    rw [each_calls h3]
    simp

theorem convertMesh_reads : Gm.Only Reads (convertMesh g) := by
  unfold convertMesh
  refine (Gm.Only.call (by simp [Reads]) _).bind fun _ => (Gm.Only.call (by simp [Reads]) _).bind fun _ =>
    (Gm.Only.lift _).bind fun _ => (Gm.Only.each (fun e => ?_) _).bind fun _ => Gm.Only.pure _
  unfold convertElements
  exact (Gm.Only.lift _).bind fun _ => (Gm.Only.call (by simp [Reads]) _).bind fun _ =>
    (Gm.Only.lift _).bind fun _ => Gm.Only.pure _

theorem Gm.Only.extends {α : Type} {P : GmshCall K → Prop} {m : Gm K α} (hm : Gm.Only P m) {a : α}
    {tr tr' : List (GmshCall K)} (h : m tr = (.ok a, tr')) : ∃ ext, tr' = tr ++ ext ∧ ∀ c ∈ ext, P c := by
  obtain ⟨ext, h1, h2⟩ := hm tr
  rw [h] at h1
  exact ⟨ext, h1, h2⟩

theorem outline_last {shell : List (V3 K)} {holes : List (List (V3 K))} {celltype : String} {cellsize : Option K}
    {engine : String} {tr tr' : List (GmshCall K)} {d : List (ℕ × ℕ)}
    (h : outline g nrm shell holes celltype cellsize engine tr = (.ok d, tr')) :
    ∃ geo c, tr' = tr ++ geo ++ [c] ∧ d = madeBy g (tr ++ geo) c := by
  have hloop : ∀ pts, Gm.Only Working (addCurveLoop g nrm pts celltype cellsize) := fun pts =>
    addCurveLoop_only g nrm _ _ _
  have hsurf : ∀ {pts t t' s}, addSurface g nrm pts celltype cellsize t = (.ok s, t') →
      ∃ geo c, t' = t ++ geo ++ [c] ∧ [s] = madeBy g (t ++ geo) c := by
    intro pts t t' s hs
    obtain ⟨loop, t1, h1, h2⟩ := Gm.bind_ok.1 hs
    obtain ⟨ext, rfl, _⟩ := (hloop pts).extends h1
    obtain ⟨tag, t2, h3, h4⟩ := Gm.bind_ok.1 h2
    obtain ⟨_, rfl, rfl⟩ := Gm.call_ok.1 h3
    obtain ⟨rfl, rfl⟩ := Gm.pure_ok.1 h4
    exact ⟨ext, _, rfl, rfl⟩
  unfold outline at h
  split at h
  · obtain ⟨loops, t1, h1, h2⟩ := Gm.bind_ok.1 h
    obtain ⟨ext, rfl, _⟩ := (Gm.Only.each (fun _ => hloop _) _).extends h1
    obtain ⟨tag, t2, h3, h4⟩ := Gm.bind_ok.1 h2
    obtain ⟨_, rfl, rfl⟩ := Gm.call_ok.1 h3
    obtain ⟨rfl, rfl⟩ := Gm.pure_ok.1 h4
    exact ⟨ext, _, rfl, rfl⟩
  · split at h
    · obtain ⟨s, t1, h1, h2⟩ := Gm.bind_ok.1 h
      obtain ⟨geo, c, rfl, hs⟩ := hsurf h1
      split at h2
      · obtain ⟨rfl, rfl⟩ := Gm.pure_ok.1 h2
        exact ⟨geo, c, rfl, hs⟩
      · obtain ⟨hd, t2, h3, h4⟩ := Gm.bind_ok.1 h2
        obtain ⟨ext, rfl, _⟩ := (Gm.Only.each (fun _ => addSurface_only g nrm _ _ _) _).extends h3
        obtain ⟨_, rfl, rfl⟩ := Gm.call_ok.1 h4
        refine ⟨geo ++ [c] ++ ext, .cut [s] hd, by simp, ?_⟩
        show g.dimTags _ _ = g.dimTags _ _
        congr 1
        simp
    · cases h

/-- **C93.** Between making the geometry and reading the mesh, a successful call sets exactly the options asked for
(minimal and maximal size when a cell size is given, algorithm), synchronises, asks for quads on the surfaces made
last when quads are wanted, meshes in two dimensions, and optimises if asked; then it only reads the mesh and closes
the session. -/
theorem C93_options {shell : Ring K} {pts : List (V3 K)} (hs : Encloses shell pts) {holes : List (Ring K)}
    {hp : List (List (V3 K))} (hh : List.Forall₂ Encloses holes hp) {celltype : String}
    (hc : celltype = "quad" ∨ celltype = "triangle") {cellsize : Option K} {algorithm : K}
    {optimization : Option String} {engine : String} {tr tr' : List (GmshCall K)} {M : CellMesh K}
    (h : polygon g nrm shell holes (some celltype) cellsize algorithm optimization engine tr = (.ok M, tr')) :
    ∃ (geo : List (GmshCall K)) (last : GmshCall K) (sizes recombine optimise reading : List (GmshCall K)),
      tr' = tr ++ [.initialize] ++ geo ++ [last] ++ sizes ++
        [.setNumber "Mesh.Algorithm" algorithm, .setNumber "General.Verbosity" 0, .synchronize] ++ recombine ++
        [.generate 2] ++ optimise ++ reading ++ [.clear, .finalize] ∧
      (cellsize = none → sizes = []) ∧
      (∀ s, cellsize = some s → sizes = [.setNumber "Mesh.MeshSizeMin" s, .setNumber "Mesh.MeshSizeMax" s,
        .setNumber "Mesh.MeshSizeFromPoints" 0, .setNumber "Mesh.MeshSizeFromCurvature" 0]) ∧
      (celltype = "triangle" → recombine = []) ∧
      (celltype = "quad" → recombine =
        (madeBy g (tr ++ [.initialize] ++ geo) last).map fun d => .setRecombine d.1 d.2) ∧
      (optimization = none ∨ optimization = some "" → optimise = []) ∧
      (∀ m, m ≠ "" → optimization = some m → optimise = [.optimize m]) ∧
      ∀ c ∈ reading, Reads c := by
  rw [polygon_run g nrm hs hh] at h
  have hd : defaultCelltype (some celltype) (hp.map fun pts => pts ++ pts.head?.toList) = celltype := by
    rcases hc with rfl | rfl <;> simp [defaultCelltype]
  have hne : celltype ≠ "polygon" := by rcases hc with rfl | rfl <;> decide
  simp only [hd] at h
  rw [if_neg hne, if_pos hc] at h
  obtain ⟨t, h1, rfl⟩ := tryFinally_ok g h
  unfold gmshBody at h1
  obtain ⟨_, s1, k1, k2⟩ := Gm.bind_ok.1 h1
  obtain ⟨_, _, rfl⟩ := Gm.call_ok.1 k1
  obtain ⟨dimTags, t1, k3, k4⟩ := Gm.bind_ok.1 k2
  obtain ⟨geo, last, rfl, hlast⟩ := outline_last g nrm k3
  obtain ⟨_, t2, e1, m1⟩ := Gm.bind_ok.1 k4
  obtain ⟨_, t3, e2, m2⟩ := Gm.bind_ok.1 m1
  obtain ⟨_, t4, e3, m3⟩ := Gm.bind_ok.1 m2
  obtain ⟨_, t5, e4, m4⟩ := Gm.bind_ok.1 m3
  obtain ⟨_, t6, e5, m5⟩ := Gm.bind_ok.1 m4
  obtain ⟨_, t7, e6, m6⟩ := Gm.bind_ok.1 m5
  obtain ⟨_, t8, e7, m7⟩ := Gm.bind_ok.1 m6
  obtain ⟨reading, rfl, hread⟩ := (convertMesh_reads g).extends m7
  obtain ⟨_, _, rfl⟩ := Gm.call_ok.1 e2
  obtain ⟨_, _, rfl⟩ := Gm.call_ok.1 e3
  obtain ⟨_, _, rfl⟩ := Gm.call_ok.1 e4
  obtain ⟨_, _, rfl⟩ := Gm.call_ok.1 e6
  have hsizes : ∃ sizes, t2 = tr ++ [.initialize] ++ geo ++ [last] ++ sizes ∧ (cellsize = none → sizes = []) ∧
      (∀ s, cellsize = some s → sizes = [.setNumber "Mesh.MeshSizeMin" s, .setNumber "Mesh.MeshSizeMax" s,
        .setNumber "Mesh.MeshSizeFromPoints" 0, .setNumber "Mesh.MeshSizeFromCurvature" 0]) := by
    cases cellsize with
    | none =>
      obtain ⟨_, rfl⟩ := Gm.pure_ok.1 e1
      exact ⟨[], by simp, fun _ => rfl, fun s hs => nomatch hs⟩
    | some s =>
      obtain ⟨_, _, a1, a2⟩ := Gm.bind_ok.1 e1
      obtain ⟨_, _, rfl⟩ := Gm.call_ok.1 a1
      obtain ⟨_, _, b1, b2⟩ := Gm.bind_ok.1 a2
      obtain ⟨_, _, rfl⟩ := Gm.call_ok.1 b1
      obtain ⟨_, _, c1, c2⟩ := Gm.bind_ok.1 b2
      obtain ⟨_, _, rfl⟩ := Gm.call_ok.1 c1
      obtain ⟨_, _, rfl⟩ := Gm.call_ok.1 c2
      exact ⟨_, by simp only [List.append_assoc, List.cons_append, List.nil_append]; rfl, fun h => (nomatch h),
        fun s' hs => by cases hs; rfl⟩
  obtain ⟨sizes, rfl, z1, z2⟩ := hsizes
  have hrec : ∃ recombine, t6 = tr ++ [.initialize] ++ geo ++ [last] ++ sizes ++
        [.setNumber "Mesh.Algorithm" algorithm, .setNumber "General.Verbosity" 0, .synchronize] ++ recombine ∧
      (celltype = "triangle" → recombine = []) ∧
      (celltype = "quad" → recombine =
        (madeBy g (tr ++ [.initialize] ++ geo) last).map fun d => .setRecombine d.1 d.2) := by
    rcases hc with rfl | rfl
    · rw [if_pos rfl] at e5
      have := each_calls g e5
      refine ⟨dimTags.map fun d => .setRecombine d.1 d.2, ?_, fun h => absurd h (by decide), fun _ => by rw [hlast]⟩
      rw [this]
      simp
    · rw [if_neg (by decide)] at e5
      obtain ⟨_, rfl⟩ := Gm.pure_ok.1 e5
      exact ⟨[], by simp, fun _ => rfl, fun h => absurd h (by decide)⟩
  obtain ⟨recombine, rfl, z3, z4⟩ := hrec
  have hopt : ∃ optimise, t8 = tr ++ [.initialize] ++ geo ++ [last] ++ sizes ++
        [.setNumber "Mesh.Algorithm" algorithm, .setNumber "General.Verbosity" 0, .synchronize] ++ recombine ++
        [.generate 2] ++ optimise ∧
      (optimization = none ∨ optimization = some "" → optimise = []) ∧
      (∀ m, m ≠ "" → optimization = some m → optimise = [.optimize m]) := by
    cases optimization with
    | none =>
      obtain ⟨_, rfl⟩ := Gm.pure_ok.1 e7
      exact ⟨[], by simp, fun _ => rfl, fun m _ hm => nomatch hm⟩
    | some m =>
      by_cases hm : m = ""
      · unfold optimizeMesh at e7
        simp only at e7
        rw [if_pos hm] at e7
        obtain ⟨_, rfl⟩ := Gm.pure_ok.1 e7
        exact ⟨[], by simp, fun _ => rfl, fun m' h1 h2 => by cases h2; exact absurd hm h1⟩
      · unfold optimizeMesh at e7
        simp only at e7
        rw [if_neg hm] at e7
        obtain ⟨_, _, rfl⟩ := Gm.call_ok.1 e7
        refine ⟨[.optimize m], by simp, ?_, fun m' h1 h2 => by cases h2; rfl⟩
        rintro (h | h)
        · cases h
        · cases h; exact absurd rfl hm
  obtain ⟨optimise, rfl, z5, z6⟩ := hopt
  exact ⟨geo, last, sizes, recombine, optimise, reading, rfl, z1, z2, z3, z4, z5, z6, hread⟩

end C93

end Gridder
