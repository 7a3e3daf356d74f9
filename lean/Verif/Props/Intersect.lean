import Verif.Model.Intersect
import Verif.Props.Lines
import Mathlib.Data.Rat.Defs
import Mathlib.Algebra.Order.Ring.Rat
import Mathlib.Data.List.Chain
import Mathlib.Tactic.Linarith
import Mathlib.Tactic.NormNum
import Mathlib.Algebra.Order.Field.Rat
import Mathlib.Algebra.Order.Group.Abs

/-! # C57, C58, C77-C79: intersecting a polyline with a mesh -/

namespace Gridder

open Spec

section
variable {P K : Type*} [LinearOrder K]

/-- A part of the result that ends at `p` on segment `lid` of the line (`V lid a b`: that segment goes from `a` to
`b`), with label `c`: `p` is the end of the segment or a point where it meets a cell; the label is -1, a cell
met at `p`, or a cell containing `p`. -/
def LabelOk (q : Queries P K) (V : ℕ → P → P → Prop) (lid : ℕ) (p : P) (c : ℤ) : Prop :=
  ∃ a b, V lid a b ∧ (p = b ∨ ∃ cid xs x, q.cast cid a b = some xs ∧ (p, x) ∈ xs) ∧
    (c = -1 ∨ (∃ xs x, q.cast c a b = some xs ∧ (p, x) ∈ xs) ∨ q.contains c p = true)

/-- What must be shown of an invariant `I lid s` of the loop; `V lid a b` says that segment `lid` of
the line goes from `a` to `b`. -/
structure MarchInv (q : Queries P K) (m : K) (V : ℕ → P → P → Prop) (I : ℕ → March P → Prop) : Prop where
  mono : ∀ lid s, I lid s → I (lid + 1) s
  cell : ∀ lid s c, I lid s → I lid { s with cell := some c }
  exit : ∀ lid s, I lid s → s.entered = true → I lid { s with exited := true }
  start : ∀ lid s, I lid s → (s.cell = none → s.entered = false) ∧ (s.exited = true → s.entered = true)
  vertex : ∀ lid s a b, I lid s → s.entered = false → V lid a b → I lid (addPoint q m s b lid (-1))
  add : ∀ lid s p c, I lid s → s.entered = true → LabelOk q V lid p c → I lid (addPoint q m s p lid c)
  enter1 : ∀ lid s p cid a b x, V lid a b → I lid s → s.entered = false → s.cell ≠ none → q.cast cid a b = some [(p, x)] →
    I lid (addPoint q m { s with count := s.points.length, entered := true } p lid (-1))
  enter2 : ∀ lid s p cid a b xs x, V lid a b → I lid s → s.entered = false → s.cell ≠ none → q.cast cid a b = some xs → (p, x) ∈ xs →
    I lid { addPoint q m { s with count := s.points.length } p lid (-1) with entered := true }

theorem addPoint_entered (q : Queries P K) (m : K) (s : March P) (p : P) (lid : ℕ) (c : ℤ) :
    (addPoint q m s p lid c).entered = s.entered := by
  unfold addPoint
  split
  · rfl
  · split <;> rfl

variable {q : Queries P K} {m : K} {V : ℕ → P → P → Prop} {I : ℕ → March P → Prop}

theorem crossExit_inv (hI : MarchInv q m V I) {ia : Bool} {final : P} {il : Bool} {s : March P} {lid : ℕ} {a b : P}
    {cid : ℤ} {x : P × ℕ} {r : March P × Bool} (hV : V lid a b) (hs : I lid s) (he : s.entered = true)
    (hx : ∃ xs, q.cast cid a b = some xs ∧ x ∈ xs) (h : crossExit q m ia final il s lid b cid x = .ok r) : I lid r.1 ∧ r.1.entered = true := by
  unfold crossExit at h
  have h1 := hI.add lid s x.1 cid hs he (by
    obtain ⟨xs, h1, h2⟩ := hx
    exact ⟨a, b, hV, Or.inr ⟨cid, xs, x.2, h1, h2⟩, Or.inr (Or.inl ⟨xs, x.2, h1, h2⟩)⟩)
  have e1 : (addPoint q m s x.1 lid cid).entered = true := by rw [addPoint_entered, he]
  simp only at h
  split at h
  · cases h
    exact ⟨h1, e1⟩
  · split at h
    · cases h
    · split at h
      · cases h
        cases ia
        · exact ⟨hI.exit _ _ (hI.add _ _ _ _ h1 e1 ⟨a, b, hV, Or.inl rfl, Or.inl rfl⟩) (by simp [addPoint_entered, he]), by simp [addPoint_entered, he]⟩
        · exact ⟨hI.exit _ _ h1 e1, e1⟩
      · split at h
        · cases h
        · rename_i c _ _
          have h2 := hI.cell lid _ c h1
          split at h
          · rename_i hcon
            cases h
            exact ⟨hI.add _ _ _ _ h2 e1 ⟨a, b, hV, Or.inl rfl, Or.inr (Or.inr hcon.2)⟩, by rw [addPoint_entered]; exact e1⟩
          · cases h
            exact ⟨h2, e1⟩

theorem nearFar_mem (q : Queries P K) (last : P) (x y : P × ℕ) :
    (nearFar q last x y).1 ∈ [x, y] ∧ (nearFar q last x y).2 ∈ [x, y] := by
  unfold nearFar
  constructor
  · simp only
    split <;> simp
  · simp only
    split <;> simp

theorem marchStep_inv (hI : MarchInv q m V I) {ia : Bool} {final : P} {il : Bool} {s : March P} {lid : ℕ}
    {a b : P} {cid : ℤ} {r : March P × Bool} (hV : V lid a b) (hs : I lid s) (hcell : s.cell ≠ none)
    (h : marchStep q m ia final il s lid a b cid = .ok r) : I lid r.1 := by
  unfold marchStep at h
  split at h
  · cases h
    exact hs
  · rename_i x last hc hl
    split at h
    · rename_i he
      have h1 := hI.enter1 lid s x.1 cid a b x.2 hV hs he hcell hc
      simp only at h
      split at h
      · cases h
        exact h1
      · exact (crossExit_inv hI hV h1 (by rw [addPoint_entered]) ⟨_, hc, by simp⟩ h).1
    · rename_i he
      have he' : s.entered = true := by simpa using he
      split at h
      · cases h
        exact hI.add _ _ _ _ hs he' ⟨a, b, hV, Or.inr ⟨cid, _, x.2, hc, by simp⟩,
          Or.inr (Or.inl ⟨_, x.2, hc, by simp⟩)⟩
      · exact (crossExit_inv hI hV hs he' ⟨_, hc, by simp⟩ h).1
  · rename_i x y last hc hl
    simp only at h
    split at h
    · rename_i he
      have h1 := hI.enter2 lid s (nearFar q last x y).1.1 cid a b [x, y] (nearFar q last x y).1.2 hV hs he
        hcell hc
        (nearFar_mem q last x y).1
      exact (crossExit_inv hI hV h1 rfl ⟨_, hc, (nearFar_mem q last x y).2⟩ h).1
    · rename_i he
      exact (crossExit_inv hI hV hs (by simpa using he) ⟨_, hc, (nearFar_mem q last x y).2⟩ h).1
  · cases h

theorem marchLoop_inv (hI : MarchInv q m V I) {ia : Bool} {final : P} {il : Bool} (fuel : ℕ) :
    ∀ {s : March P} {lid : ℕ} {a b : P} {r : March P}, V lid a b → I lid s →
    marchLoop q m ia final il fuel s lid a b = .ok r → I lid r := by
  induction fuel with
  | zero => intro s lid a b r _ _ h; cases h
  | succ fuel ih =>
    intro s lid a b r hV hs h
    unfold marchLoop at h
    split at h
    · cases h; exact hs
    · rename_i cid hcid
      have hcell : s.cell ≠ none := by rw [hcid]; simp
      split at h
      · cases h
      · rename_i hr
        cases h
        exact marchStep_inv hI hV hs hcell hr
      · rename_i hr
        exact ih hV (marchStep_inv hI hV hs hcell hr) h

theorem marchInside_inv (hI : MarchInv q m V I) {ia : Bool} {final : P} {il : Bool} {fuel : ℕ} {s : March P}
    {lid : ℕ} {a b : P} {r : March P × Bool} (hV : V lid a b) (hs : I lid s)
    (h : marchInside q m ia final il fuel s lid a b = .ok r) : I lid r.1 := by
  unfold marchInside at h
  split at h
  · split at h
    · cases h
    · rename_i hr
      cases h
      exact marchLoop_inv hI fuel hV hs hr
  · rename_i hx
    split at h
    · cases h; exact hs
    · cases h
      exact hI.add _ _ _ _ hs ((hI.start _ _ hs).2 (by simpa using hx))
        ⟨a, b, hV, Or.inl rfl, Or.inl rfl⟩

theorem marchSegment_inv (hI : MarchInv q m V I) {ia : Bool} {final : P} {il : Bool} {fuel : ℕ} {s : March P}
    {lid : ℕ} {a b : P} {r : March P × Bool} (hV : V lid a b) (hs : I lid s)
    (h : marchSegment q m ia final il fuel s lid a b = .ok r) : I lid r.1 := by
  unfold marchSegment at h
  split at h
  · exact marchInside_inv hI hV hs h
  · rename_i hc
    split at h
    · cases h
      exact hI.vertex _ _ a _ hs ((hI.start _ _ hs).1 hc) hV
    · exact marchInside_inv hI hV (hI.cell _ _ _ hs) h

theorem marchLine_inv (hI : MarchInv q m V I) {ia : Bool} {final : P} {fuel : ℕ} (rest : List P) :
    ∀ {s : March P} {lid : ℕ} {a : P} {r : March P}, I lid s →
    (∀ (k : ℕ) (a' b' : P), (a :: rest)[k]? = some a' → (a :: rest)[k + 1]? = some b' → V (lid + k) a' b') →
    rest ≠ [] →
    marchLine q m ia final fuel s lid a rest = .ok r → ∃ l < lid + rest.length, I l r := by
  induction rest with
  | nil => intro s lid a r _ _ h; exact absurd rfl h
  | cons b rest ih =>
    intro s lid a r hs hV _ h
    unfold marchLine at h
    split at h
    · cases h
    · rename_i hr
      cases h
      exact ⟨lid, by simp, marchSegment_inv hI (hV 0 a b rfl rfl) hs hr⟩
    · rename_i hr
      have h1 := marchSegment_inv hI (hV 0 a b rfl rfl) hs hr
      by_cases hne : rest = []
      · subst hne
        cases h
        exact ⟨lid, by simp, h1⟩
      · obtain ⟨l, hl, hI'⟩ := ih (hI.mono _ _ h1) (fun k a' b' ha hb => by
          have := hV (k + 1) a' b' ha hb
          rwa [show lid + (k + 1) = lid + 1 + k by omega] at this) hne h
        exact ⟨l, by rw [List.length_cons]; omega, hI'⟩

/-! ## C57 -/

/-- The arrays of the loop fit together. -/
structure Fits (q : Queries P K) (lid : ℕ) (s : March P) : Prop where
  start : (s.cell = none → s.entered = false) ∧ (s.exited = true → s.entered = true)
  lines : s.lineIds.length + 1 = s.points.length
  cells : s.cellIds.length + 1 = s.points.length
  bound : ∀ i ∈ s.lineIds, i ≤ lid
  sorted : s.lineIds.Pairwise (· ≤ ·)
  apart : s.points.IsChain (fun p p' => q.close p p' = false)

theorem addPoint_other (q : Queries P K) (m : K) (s : March P) (p : P) (lid : ℕ) (c : ℤ) :
    (addPoint q m s p lid c).cell = s.cell ∧ (addPoint q m s p lid c).exited = s.exited ∧
    (addPoint q m s p lid c).count = s.count := by
  unfold addPoint
  split
  · exact ⟨rfl, rfl, rfl⟩
  · split <;> exact ⟨rfl, rfl, rfl⟩

theorem Fits.addPoint {lid : ℕ} {s : March P} (hs : Fits q lid s) (p : P) (c : ℤ) :
    Fits q lid (addPoint q m s p lid c) := by
  obtain ⟨o1, o2, -⟩ := addPoint_other q m s p lid c
  have oe := addPoint_entered q m s p lid c
  have hst : ((Gridder.addPoint q m s p lid c).cell = none → (Gridder.addPoint q m s p lid c).entered = false) ∧
      ((Gridder.addPoint q m s p lid c).exited = true → (Gridder.addPoint q m s p lid c).entered = true) := by
    rw [o1, o2, oe]
    exact hs.start
  refine ⟨hst, ?_, ?_, ?_, ?_, ?_⟩ <;> unfold Gridder.addPoint <;> split
  · exact hs.lines
  · split
    · simp [← hs.lines]
    · exact hs.lines
  · exact hs.cells
  · split
    · simp [← hs.cells]
    · exact hs.cells
  · exact hs.bound
  · split
    · intro i hi
      rcases List.mem_append.1 hi with h | h
      · exact hs.bound i h
      · rw [List.mem_singleton.1 h]
    · exact hs.bound
  · exact hs.sorted
  · split
    · rw [List.pairwise_append]
      refine ⟨hs.sorted, by simp, ?_⟩
      intro i hi j hj
      rw [List.mem_singleton.1 hj]
      exact hs.bound i hi
    · exact hs.sorted
  · exact hs.apart
  · rename_i last hl
    split
    · rename_i hc
      rw [List.isChain_append]
      refine ⟨hs.apart, by simp, ?_⟩
      intro x hx y hy
      rw [hl] at hx
      simp only [Option.mem_def, Option.some.injEq, List.head?_cons] at hx hy
      subst hx hy
      exact hc.1
    · exact hs.apart

theorem fits_inv (q : Queries P K) (m : K) : MarchInv q m (fun _ _ _ => True) (Fits q) where
  mono lid s h := ⟨h.start, h.lines, h.cells, fun i hi => (h.bound i hi).trans (Nat.le_succ _), h.sorted, h.apart⟩
  cell lid s c h := ⟨⟨by simp, h.start.2⟩, h.lines, h.cells, h.bound, h.sorted, h.apart⟩
  exit lid s h he := ⟨⟨h.start.1, fun _ => he⟩, h.lines, h.cells, h.bound, h.sorted, h.apart⟩
  start lid s h := h.start
  vertex lid s a b h _ _ := h.addPoint b (-1)
  add lid s p c h _ _ := h.addPoint p c
  enter1 lid s p cid a b x hV h he hc _ := by
    refine Fits.addPoint ?_ p (-1)
    exact ⟨⟨fun h0 => absurd h0 hc, fun _ => rfl⟩, h.lines, h.cells, h.bound, h.sorted, h.apart⟩
  enter2 lid s p cid a b xs x hV h he hc _ _ := by
    have h1 : Fits q lid { s with count := s.points.length } :=
      ⟨h.start, h.lines, h.cells, h.bound, h.sorted, h.apart⟩
    have h2 := h1.addPoint (m := m) p (-1)
    obtain ⟨o1, -, -⟩ := addPoint_other q m { s with count := s.points.length } p lid (-1)
    exact ⟨⟨fun h0 => absurd (o1 ▸ h0) hc, fun _ => rfl⟩, h2.lines, h2.cells, h2.bound, h2.sorted, h2.apart⟩

theorem march_fits {ia : Bool} {fuel : ℕ} {line : List P} {s : March P} (h : march q m ia fuel line = .ok s) :
    ∃ l, Fits q l s ∧ (2 ≤ line.length → l + 1 < line.length) ∧ (line.length < 2 → s.points.length = 1) := by
  unfold march at h
  split at h
  · cases h
  · rename_i a rest
    by_cases hne : rest = []
    · subst hne
      cases h
      exact ⟨0, ⟨by simp, rfl, rfl, by simp, by simp, by simp⟩, by simp, by simp⟩
    · obtain ⟨l, hl, hf⟩ := marchLine_inv (fits_inv q m) rest
        (⟨by simp, rfl, rfl, by simp, by simp, by simp⟩ : Fits q 0 ⟨[a], [], [], none, false, false, 0⟩)
        (fun _ _ _ _ _ => trivial) hne h
      refine ⟨l, hf, fun _ => by rw [List.length_cons]; omega, ?_⟩
      intro hlt
      cases rest with
      | nil => exact absurd rfl hne
      | cons b rest => rw [List.length_cons, List.length_cons] at hlt; omega

theorem intersect_ok {D : Type*} {ib ia : Bool} {fuel : ℕ} {line : List P} {cellData : Dict String (List D)}
    {r : Crossing P D} (h : intersectPolyline q m ib ia fuel line cellData = .ok r) :
    ∃ s n, march q m ia fuel line = .ok s ∧ n = (if ib then s.count else 0) ∧ n + 2 ≤ s.points.length ∧
      r.points = s.points.drop n ∧ r.lineIds = s.lineIds.drop n ∧ r.cellIds = s.cellIds.drop n ∧
      List.Forall₂ (fun kv kv' => kv'.1 = kv.1 ∧ kv'.2.map some = along kv.2 r.lineIds)
        (cellData.filter fun kv => kv.1 ∉ crossingNames) r.cellData := by
  unfold intersectPolyline at h
  split at h
  · cases h
  · rename_i s hs
    simp only at h
    obtain ⟨n, hn⟩ : ∃ n, n = (if ib = true then s.count else 0) := ⟨_, rfl⟩
    rw [← hn] at h
    split at h
    · cases h
    · rename_i hlen
      rw [List.length_drop] at hlen
      split at h
      · cases h
      · rename_i data hdata
        cases h
        refine ⟨s, n, hs, hn, by omega, rfl, rfl, rfl, ?_⟩
        refine (mapPy_ok_iff.1 hdata).imp ?_
        intro kv kv' hkv
        unfold passArray at hkv
        split at hkv
        · cases hkv
        · rename_i v hv
          cases hkv
          exact ⟨rfl, gather_ok_iff.1 hv⟩

theorem forall₂_mem_right {α β : Type*} {R : α → β → Prop} {l : List α} {l' : List β} (h : List.Forall₂ R l l')
    {b : β} (hb : b ∈ l') : ∃ a ∈ l, R a b := by
  induction h with
  | nil => simp at hb
  | cons hr _ ih =>
    rcases List.mem_cons.1 hb with rfl | hb
    · exact ⟨_, by simp, hr⟩
    · obtain ⟨a, ha, hab⟩ := ih hb
      exact ⟨a, by simp [ha], hab⟩

/-- **C57**: whatever the geometric queries answer, the result has one entry of each array per segment, the
segment ids are those of segments of the line and never decrease, and no two consecutive points are close. -/
theorem C57_consistent {D : Type*} (q : Queries P K) (m : K) (ib ia : Bool) (fuel : ℕ) (line : List P)
    (cellData : Dict String (List D)) (r : Crossing P D)
    (h : intersectPolyline q m ib ia fuel line cellData = .ok r) :
    2 ≤ r.points.length ∧ r.lineIds.length + 1 = r.points.length ∧ r.cellIds.length + 1 = r.points.length ∧
    (∀ kv ∈ r.cellData, kv.2.length + 1 = r.points.length) ∧ (∀ i ∈ r.lineIds, i + 1 < line.length) ∧
    r.lineIds.Pairwise (· ≤ ·) ∧ r.points.IsChain (fun p p' => q.close p p' = false) := by
  obtain ⟨s, n, hs, hn, hlen, e1, e2, e3, hd⟩ := intersect_ok h
  obtain ⟨l, hf, hl, hl'⟩ := march_fits hs
  have hline : 2 ≤ line.length := by
    by_contra hc
    have := hl' (by omega)
    omega
  have h1 := hf.lines
  have h2 := hf.cells
  have hids : r.lineIds.length + 1 = r.points.length := by rw [e1, e2]; simp; omega
  refine ⟨by rw [e1]; simp; omega, hids, by rw [e1, e3]; simp; omega, ?_, ?_, ?_, ?_⟩
  · intro kv hkv
    obtain ⟨kv', -, -, hkv'⟩ := forall₂_mem_right hd hkv
    rw [← hids]
    have := congrArg List.length hkv'
    simpa [along] using this
  · intro i hi
    rw [e2] at hi
    have := hf.bound i (List.mem_of_mem_drop hi)
    have := hl hline
    omega
  · rw [e2]
    exact hf.sorted.drop
  · rw [e1]
    exact hf.apart.drop n

/-! ## C58 -/

/-- Before the entry, only vertices of the line, outside; after it, the entry is point number `count`. -/
structure Entry (q : Queries P K) (line : List P) (_lid : ℕ) (s : March P) : Prop where
  start : (s.cell = none → s.entered = false) ∧ (s.exited = true → s.entered = true)
  cells : s.cellIds.length + 1 = s.points.length
  before : s.entered = false → (∀ p ∈ s.points, p ∈ line) ∧ (∀ c ∈ s.cellIds, c = -1) ∧ s.count = 0
  after : s.entered = true → (∃ cid a b xs p x, q.cast cid a b = some xs ∧ (p, x) ∈ xs ∧
    s.points[s.count]? = some p) ∧ ∀ c ∈ s.cellIds.take s.count, c = -1

theorem addPoint_cases (q : Queries P K) (m : K) (s : March P) (p : P) (lid : ℕ) (c : ℤ) :
    addPoint q m s p lid c = s ∨ addPoint q m s p lid c =
      { s with points := s.points ++ [p], lineIds := s.lineIds ++ [lid], cellIds := s.cellIds ++ [c] } := by
  unfold addPoint
  split
  · exact Or.inl rfl
  · split
    · exact Or.inr rfl
    · exact Or.inl rfl

theorem entry_inv {line : List P} (hout : ∀ cid a b xs p x, q.cast cid a b = some xs → (p, x) ∈ xs →
    ∀ v ∈ line, q.close v p = false ∧ m ≤ q.dist p v) : MarchInv q m (fun _ _ b => b ∈ line) (Entry q line) where
  mono lid s h := ⟨h.start, h.cells, h.before, h.after⟩
  cell lid s c h := ⟨⟨by simp, h.start.2⟩, h.cells, h.before, h.after⟩
  exit lid s h he := ⟨⟨h.start.1, fun _ => he⟩, h.cells, h.before, h.after⟩
  start lid s h := h.start
  vertex lid s _ b h he hb := by
    rcases addPoint_cases q m s b lid (-1) with e | e <;> rw [e]
    · exact h
    · refine ⟨h.start, by simp [← h.cells], fun _ => ⟨?_, ?_, (h.before he).2.2⟩, ?_⟩
      · intro p hp
        rcases List.mem_append.1 hp with hp | hp
        · exact (h.before he).1 p hp
        · rw [List.mem_singleton.1 hp]; exact hb
      · intro c hc
        rcases List.mem_append.1 hc with hc | hc
        · exact (h.before he).2.1 c hc
        · exact List.mem_singleton.1 hc
      · intro he'
        exact absurd (he.symm.trans he') (by simp)
  add lid s p c h he _ := by
    rcases addPoint_cases q m s p lid c with e | e <;> rw [e]
    · exact h
    · obtain ⟨⟨cid, a, b, xs, p', x, k1, k2, k3⟩, k4⟩ := h.after he
      have hlt : s.count < s.points.length := (List.getElem?_eq_some_iff.1 k3).1
      have hc := h.cells
      refine ⟨h.start, by simp [← h.cells], ?_, fun _ => ⟨⟨cid, a, b, xs, p', x, k1, k2, ?_⟩, ?_⟩⟩
      · intro he'
        exact absurd (he.symm.trans he') (by simp)
      · rw [List.getElem?_append_left hlt]
        exact k3
      · rw [List.take_append_of_le_length (show s.count ≤ _ by omega)]
        exact k4
  enter1 lid s p cid a b x hV h he hc hcast := by
    obtain ⟨b1, b2, b3⟩ := h.before he
    have hcells := h.cells
    have hne : s.points ≠ [] := by intro h0; rw [h0] at hcells; simp at hcells
    obtain ⟨e1, e2⟩ := hout cid a b _ p x hcast (by simp) _ (b1 _ (List.getLast_mem hne))
    have e : addPoint q m { s with count := s.points.length, entered := true } p lid (-1) =
        ⟨s.points ++ [p], s.lineIds ++ [lid], s.cellIds ++ [-1], s.cell, true, s.exited, s.points.length⟩ := by
      unfold addPoint
      simp only [List.getLast?_eq_getLast_of_ne_nil hne, e1, e2]
      simp
    rw [e]
    refine ⟨⟨fun h0 => absurd h0 hc, fun _ => rfl⟩, by simp [← hcells], by simp, fun _ =>
      ⟨⟨cid, a, b, _, p, x, hcast, by simp, by simp⟩, ?_⟩⟩
    intro c hc'
    rcases List.mem_append.1 (List.mem_of_mem_take hc') with hc' | hc'
    · exact b2 c hc'
    · exact List.mem_singleton.1 hc'
  enter2 lid s p cid a b xs x hV h he hc hcast hx := by
    obtain ⟨b1, b2, b3⟩ := h.before he
    have hcells := h.cells
    have hne : s.points ≠ [] := by intro h0; rw [h0] at hcells; simp at hcells
    obtain ⟨e1, e2⟩ := hout cid a b _ p x hcast hx _ (b1 _ (List.getLast_mem hne))
    have e : addPoint q m { s with count := s.points.length } p lid (-1) =
        ⟨s.points ++ [p], s.lineIds ++ [lid], s.cellIds ++ [-1], s.cell, s.entered, s.exited, s.points.length⟩ := by
      unfold addPoint
      simp only [List.getLast?_eq_getLast_of_ne_nil hne, e1, e2]
      simp
    rw [e]
    refine ⟨⟨fun h0 => absurd h0 hc, fun _ => rfl⟩, by simp [← hcells], by simp, fun _ =>
      ⟨⟨cid, a, b, _, p, x, hcast, hx, by simp⟩, ?_⟩⟩
    intro c hc'
    rcases List.mem_append.1 (List.mem_of_mem_take hc') with hc' | hc'
    · exact b2 c hc'
    · exact List.mem_singleton.1 hc'

/-- **C58**, for lines none of whose vertices is close to, or within the minimum length of, an intersection with
a face: `ignore_points_before_entry` only removes leading segments, all of them labelled as outside, and the
result starts at an intersection with a face (or the mesh was never entered and nothing is removed).  Missing:
lines with a vertex on the boundary (`C58_boundary_refuted`), and that the segments labelled -1 are really
outside, which is false for lines starting inside the mesh (`C58_inside_refuted`). -/
theorem C58_outside_partial {D : Type*} {ia : Bool} {fuel : ℕ} {line : List P} {cellData : Dict String (List D)}
    (hout : ∀ cid a b xs p x, q.cast cid a b = some xs → (p, x) ∈ xs →
      ∀ v ∈ line, q.close v p = false ∧ m ≤ q.dist p v) {r r' : Crossing P D}
    (h : intersectPolyline q m true ia fuel line cellData = .ok r)
    (h' : intersectPolyline q m false ia fuel line cellData = .ok r') :
    ∃ n, r.points = r'.points.drop n ∧ r.lineIds = r'.lineIds.drop n ∧ r.cellIds = r'.cellIds.drop n ∧
      (∀ c ∈ r'.cellIds.take n, c = -1) ∧
      ((n = 0 ∧ ∀ c ∈ r'.cellIds, c = -1) ∨ ∃ cid a b xs p x, q.cast cid a b = some xs ∧ (p, x) ∈ xs ∧
        r.points.head? = some p) := by
  obtain ⟨s, n, hs, hn, hlen, e1, e2, e3, -⟩ := intersect_ok h
  obtain ⟨s', n', hs', hn', -, e1', e2', e3', -⟩ := intersect_ok h'
  rw [hs] at hs'
  cases hs'
  simp only [if_true, Bool.false_eq_true, if_false] at hn hn'
  subst hn hn'
  rw [List.drop_zero] at e1' e2' e3'
  have hI : ∃ l, Entry q line l s := by
    unfold march at hs
    split at hs
    · cases hs
    · rename_i a rest
      have h0 : Entry q (a :: rest) 0 ⟨[a], [], [], none, false, false, 0⟩ :=
        ⟨by simp, rfl, by simp, by simp⟩
      by_cases hne : rest = []
      · subst hne
        cases hs
        exact ⟨0, h0⟩
      · obtain ⟨l, -, hl⟩ := marchLine_inv (entry_inv hout) rest h0
          (fun k a' b' _ hb => List.mem_of_getElem? hb) hne hs
        exact ⟨l, hl⟩
  obtain ⟨l, hI⟩ := hI
  refine ⟨s.count, by rw [e1, e1'], by rw [e2, e2'], by rw [e3, e3'], ?_, ?_⟩
  · rw [e3']
    cases he : s.entered with
    | false => rw [(hI.before he).2.2]; simp
    | true => exact (hI.after he).2
  · cases he : s.entered with
    | false =>
      left
      rw [e3']
      exact ⟨(hI.before he).2.2, (hI.before he).2.1⟩
    | true =>
      right
      obtain ⟨⟨cid, a, b, xs, p, x, k1, k2, k3⟩, -⟩ := hI.after he
      refine ⟨cid, a, b, xs, p, x, k1, k2, ?_⟩
      rw [e1, List.head?_drop]
      exact k3

/-! ## C77, C78, C79 -/

/-- Segment number `lid` of the line goes from `a` to `b`. -/
def SegmentOf (line : List P) (lid : ℕ) (a b : P) : Prop := line[lid]? = some a ∧ line[lid + 1]? = some b

/-- Every label and every segment number fits the end of its segment. -/
structure Labelled (q : Queries P K) (line : List P) (_lid : ℕ) (s : March P) : Prop where
  start : (s.cell = none → s.entered = false) ∧ (s.exited = true → s.entered = true)
  nonempty : s.points ≠ []
  same : s.lineIds.length = s.cellIds.length
  labels : List.Forall₂ (fun p lc => LabelOk q (SegmentOf line) lc.1 p lc.2) s.points.tail
    (s.lineIds.zip s.cellIds)

theorem Labelled.addPoint {line : List P} {lid : ℕ} {s : March P} (hs : Labelled q line lid s) {p : P} {c : ℤ}
    (hc : LabelOk q (SegmentOf line) lid p c) : Labelled q line lid (addPoint q m s p lid c) := by
  rcases addPoint_cases q m s p lid c with e | e <;> rw [e]
  · exact hs
  · refine ⟨hs.start, by simp, by simp [hs.same], ?_⟩
    simp only
    rw [List.tail_append_of_ne_nil hs.nonempty, List.zip_append hs.same]
    exact List.rel_append hs.labels (.cons hc .nil)

theorem labelled_inv (q : Queries P K) (m : K) (line : List P) :
    MarchInv q m (SegmentOf line) (Labelled q line) where
  mono lid s h := ⟨h.start, h.nonempty, h.same, h.labels⟩
  cell lid s c h := ⟨⟨by simp, h.start.2⟩, h.nonempty, h.same, h.labels⟩
  exit lid s h he := ⟨⟨h.start.1, fun _ => he⟩, h.nonempty, h.same, h.labels⟩
  start lid s h := h.start
  vertex lid s a b h _ hV := h.addPoint ⟨a, b, hV, Or.inl rfl, Or.inl rfl⟩
  add lid s p c h _ hc := h.addPoint hc
  enter1 lid s p cid a b x hV h he hc hcast := by
    refine Labelled.addPoint ?_ ⟨a, b, hV, Or.inr ⟨cid, _, x, hcast, by simp⟩, Or.inl rfl⟩
    exact ⟨⟨fun h0 => absurd h0 hc, fun _ => rfl⟩, h.nonempty, h.same, h.labels⟩
  enter2 lid s p cid a b xs x hV h he hc hcast hx := by
    have h1 : Labelled q line lid { s with count := s.points.length } := ⟨h.start, h.nonempty, h.same, h.labels⟩
    have h2 := h1.addPoint (m := m) (p := p) (c := -1) ⟨a, b, hV, Or.inr ⟨cid, _, x, hcast, hx⟩, Or.inl rfl⟩
    obtain ⟨o1, -, -⟩ := addPoint_other q m { s with count := s.points.length } p lid (-1)
    exact ⟨⟨fun h0 => absurd (o1 ▸ h0) hc, fun _ => rfl⟩, h2.nonempty, h2.same, h2.labels⟩

theorem march_labelled {ia : Bool} {fuel : ℕ} {line : List P} {s : March P} (hs : march q m ia fuel line = .ok s) :
    ∃ l, Labelled q line l s := by
  unfold march at hs
  split at hs
  · cases hs
  · rename_i a rest
    have h0 : Labelled q (a :: rest) 0 ⟨[a], [], [], none, false, false, 0⟩ := ⟨by simp, by simp, rfl, .nil⟩
    by_cases hne : rest = []
    · subst hne
      cases hs
      exact ⟨0, h0⟩
    · obtain ⟨l, -, hl⟩ := marchLine_inv (labelled_inv q m (a :: rest)) rest h0
        (fun k a' b' ha hb => by rw [Nat.zero_add]; exact ⟨ha, hb⟩) hne hs
      exact ⟨l, hl⟩

theorem intersect_labels {D : Type*} {ib ia : Bool} {fuel : ℕ} {line : List P} {cellData : Dict String (List D)}
    {r : Crossing P D} (h : intersectPolyline q m ib ia fuel line cellData = .ok r) (k i : ℕ) (c : ℤ) (p : P)
    (hi : r.lineIds[k]? = some i) (hc : r.cellIds[k]? = some c) (hp : r.points[k + 1]? = some p) :
    LabelOk q (SegmentOf line) i p c := by
  obtain ⟨s, n, hs, hn, hlen, e1, e2, e3, -⟩ := intersect_ok h
  obtain ⟨l, hI⟩ := march_labelled hs
  rw [e2, List.getElem?_drop] at hi
  rw [e3, List.getElem?_drop] at hc
  rw [e1, List.getElem?_drop] at hp
  have hp' : s.points.tail[n + k]? = some p := by
    rw [List.getElem?_tail]
    exact hp
  have hz : (s.lineIds.zip s.cellIds)[n + k]? = some (i, c) := List.getElem?_zip_eq_some.2 ⟨hi, hc⟩
  obtain ⟨i1, g1⟩ := List.getElem?_eq_some_iff.1 hp'
  obtain ⟨i2, g2⟩ := List.getElem?_eq_some_iff.1 hz
  have := hI.labels.get i1 i2
  simp only [List.get_eq_getElem] at this
  rw [g1, g2] at this
  exact this

/-- **C57**, **C79**: the segment ids name the right segments: every point after the first is the end of the
segment of the line with the recorded number, or a point where this very segment meets a cell. -/
theorem C57_segments {D : Type*} {ib ia : Bool} {fuel : ℕ} {line : List P} {cellData : Dict String (List D)}
    {r : Crossing P D} (h : intersectPolyline q m ib ia fuel line cellData = .ok r) :
    ∀ (k i : ℕ) (p : P), r.lineIds[k]? = some i → r.points[k + 1]? = some p →
      ∃ a b, line[i]? = some a ∧ line[i + 1]? = some b ∧
        (p = b ∨ ∃ cid xs x, q.cast cid a b = some xs ∧ (p, x) ∈ xs) := by
  intro k i p hi hp
  obtain ⟨-, h1, h2, -⟩ := C57_consistent q m ib ia fuel line cellData r h
  have hk : k < r.cellIds.length := by
    have := (List.getElem?_eq_some_iff.1 hi).1
    omega
  obtain ⟨a, b, ⟨ha, hb⟩, hpl, -⟩ := intersect_labels h k i _ p hi (List.getElem?_eq_getElem hk) hp
  exact ⟨a, b, ha, hb, hpl⟩

/-- **C77**, in one direction: a segment labelled with a cell ends where the recorded segment of the line meets
that cell, or inside it.  Missing: that segments labelled -1 are outside the mesh, which is false
(`C77_inside_refuted`, `C77_entry_refuted`), and that the segment starts in the cell. -/
theorem C77_labels_partial {D : Type*} {ib ia : Bool} {fuel : ℕ} {line : List P} {cellData : Dict String (List D)}
    {r : Crossing P D} (h : intersectPolyline q m ib ia fuel line cellData = .ok r) :
    ∀ (k i : ℕ) (c : ℤ) (p : P), r.lineIds[k]? = some i → r.cellIds[k]? = some c → r.points[k + 1]? = some p →
      c ≠ -1 → (∃ a b xs x, line[i]? = some a ∧ line[i + 1]? = some b ∧ q.cast c a b = some xs ∧ (p, x) ∈ xs) ∨
        q.contains c p = true := by
  intro k i c p hi hc hp hne
  obtain ⟨a, b, ⟨ha, hb⟩, -, h1 | ⟨xs, x, h1, h2⟩ | h1⟩ := intersect_labels h k i c p hi hc hp
  · exact absurd h1 hne
  · exact Or.inl ⟨a, b, xs, x, ha, hb, h1, h2⟩
  · exact Or.inr h1

/-- **C78** for lines that miss the mesh: the line is returned up to its last point, all of it labelled -1.
Missing: lines that meet the mesh; false for those that end inside it (`C78_last_refuted`). -/
theorem C78_outside_partial {ia : Bool} {fuel : ℕ} (a : P) (rest : List P) (hmiss : ∀ a b, q.find a b = none)
    (hap : (a :: rest).IsChain (fun p p' => q.close p p' = false)) :
    ∃ s, march q m ia fuel (a :: rest) = .ok s ∧ s.points = a :: rest ∧ s.cellIds = rest.map fun _ => -1 := by
  have key : ∀ (rest : List P) (final a : P) (s : March P) (lid : ℕ), s.cell = none → s.entered = false →
      s.points.getLast? = some a → (a :: rest).IsChain (fun p p' => q.close p p' = false) →
      ∃ s', marchLine q m ia final fuel s lid a rest = .ok s' ∧ s'.points = s.points ++ rest ∧
        s'.cellIds = s.cellIds ++ rest.map fun _ => -1 := by
    intro rest
    induction rest with
    | nil => intro final a s lid _ _ _ _; exact ⟨s, rfl, by simp, by simp⟩
    | cons b rest ih =>
      intro final a s lid hc he hl hch
      rw [List.isChain_cons_cons] at hch
      have e : addPoint q m s b lid (-1) =
          { s with points := s.points ++ [b], lineIds := s.lineIds ++ [lid], cellIds := s.cellIds ++ [-1] } := by
        unfold addPoint
        simp [hl, hch.1, he]
      obtain ⟨s', h1, h2, h3⟩ := ih final b
        { s with points := s.points ++ [b], lineIds := s.lineIds ++ [lid], cellIds := s.cellIds ++ [-1] }
        (lid + 1) hc he (by simp) hch.2
      refine ⟨s', ?_, by rw [h2]; simp, by rw [h3]; simp⟩
      unfold marchLine marchSegment
      simp only [hc, hmiss, e]
      simpa only [hc] using h1
  obtain ⟨s, h1, h2, h3⟩ := key rest ((a :: rest).getLastD a) a ⟨[a], [], [], none, false, false, 0⟩ 0 rfl rfl rfl hap
  exact ⟨s, h1, by simpa using h2, by simpa using h3⟩

/-- **C79** for lines with one cell per segment: each array of the line is read at the segment of every part of
the result.  False for lines made of one polyline cell (`C79_polyline_refuted`). -/
theorem C79_segments_partial {D : Type*} {ib ia : Bool} {fuel : ℕ} {line : List P}
    {cellData : Dict String (List D)} {r : Crossing P D}
    (h : intersectPolyline q m ib ia fuel line cellData = .ok r) :
    List.Forall₂ (fun kv kv' => kv'.1 = kv.1 ∧ ∀ (k i : ℕ), r.lineIds[k]? = some i → kv'.2[k]? = kv.2[i]?)
      (cellData.filter fun kv => kv.1 ∉ ["Length", "vtkOriginalCellIds", "IntersectedCellIds"]) r.cellData := by
  obtain ⟨s, n, hs, hn, hlen, e1, e2, e3, hd⟩ := intersect_ok h
  refine hd.imp ?_
  rintro kv kv' ⟨h1, h2⟩
  refine ⟨h1, fun k i hk => ?_⟩
  have h3 := congrArg (·[k]?) h2
  simp only [along, List.getElem?_map, hk, Option.map_some] at h3
  cases h4 : kv'.2[k]? with
  | none => rw [h4] at h3; simp at h3
  | some v => rw [h4] at h3; simpa using h3

/-- With one value per segment of the line, passing the data never fails. -/
theorem C79_total {D : Type*} {ia : Bool} {fuel : ℕ} {line : List P} {cellData : Dict String (List D)}
    {s : March P} (hs : march q m ia fuel line = .ok s) (hlen : 2 ≤ s.points.length)
    (hd : ∀ kv ∈ cellData, kv.2.length + 1 = line.length) :
    ∃ r, intersectPolyline q m false ia fuel line cellData = .ok r := by
  obtain ⟨l, hf, hl, hl'⟩ := march_fits hs
  have hline : 2 ≤ line.length := by
    by_contra hc
    have := hl' (by omega)
    omega
  have hall : ∃ data, mapPy (passArray (s.lineIds.drop 0)) (cellData.filter fun kv => kv.1 ∉ crossingNames) =
      .ok data := by
    apply mapPy_exists
    intro kv hkv
    obtain ⟨v, hv⟩ := gather_exists (xs := kv.2) (ids := s.lineIds.drop 0) (by
      intro i hi
      have h1 := hf.bound i (List.mem_of_mem_drop hi)
      have h2 := hd kv (List.mem_of_mem_filter hkv)
      have := hl hline
      omega)
    exact ⟨(kv.1, v), by unfold passArray; rw [hv]⟩
  obtain ⟨data, hdata⟩ := hall
  refine ⟨⟨s.points.drop 0, s.lineIds.drop 0, s.cellIds.drop 0, data⟩, ?_⟩
  unfold intersectPolyline
  simp only [hs, Bool.false_eq_true, if_false, hdata]
  rw [if_neg (by rw [List.drop_zero]; omega)]

end

/-! ## Concrete runs -/

/-- The first interval whose centre is closest to `a`. -/
def closest (a : ℚ) : List ℕ → Option ℕ
  | [] => none
  | c :: l =>
    match closest a l with
    | none => some c
    | some d => if |(d : ℚ) + 1 / 2 - a| < |(c : ℚ) + 1 / 2 - a| then some d else some c

/-- A row of `n` unit cubes crossed along its axis, positions being those along the axis: exact answers to the
queries (the faces parallel to the line are left out by the angle test of `ray_cast`; faces touched by an end of
the segment count as crossed). -/
def rowQueries (n : ℕ) : Queries ℚ ℚ where
  find a b := (closest a ((List.range n).filter fun (c : ℕ) =>
    decide (min a b ≤ (c : ℚ) + 1 ∧ (c : ℚ) ≤ max a b))).map Int.ofNat
  cast c a b :=
    let xs := [c, c + 1].filter fun (f : ℤ) => decide (min a b ≤ (f : ℚ) ∧ (f : ℚ) ≤ max a b)
    if xs = [] then none else some (xs.map fun (f : ℤ) => ((f : ℚ), f.toNat))
  faceCells f := [if f = 0 then -1 else (f : ℤ) - 1, if f = n then -1 else (f : ℤ)]
  contains c p := decide ((c : ℚ) ≤ p ∧ p ≤ c + 1)
  close p p' := decide (|p - p'| ≤ 1 / 1000)
  dist p p' := |p - p'|

/-- The run, with the cell data of the line. -/
def rowRun (ib : Bool) (line : List ℚ) (data : List ℕ) : Py (List ℚ × List ℕ × List ℤ) :=
  match intersectPolyline (rowQueries 2) (1 / 100) ib false 10 line [("A", data)] with
  | .error e => .error e
  | .ok r => .ok (r.points, r.lineIds, r.cellIds)

/-- A line through the mesh: entry at 0, exit at 2. -/
example : rowRun false [-1, 3] [7] = .ok ([-1, 0, 1, 2, 3], [0, 0, 0, 0], [-1, 0, 1, -1]) := by decide +kernel
example : rowRun true [-1, 3] [7] = .ok ([0, 1, 2, 3], [0, 0, 0], [0, 1, -1]) := by decide +kernel

theorem half_apart (v : ℤ) (f : ℤ) : (1 / 2 : ℚ) ≤ |(v : ℚ) + 1 / 2 - f| := by
  rcases le_or_gt f v with h | h
  · have : (f : ℚ) ≤ v := by exact_mod_cast h
    exact le_trans (by linarith) (le_abs_self _)
  · have : (v : ℚ) + 1 ≤ f := by exact_mod_cast h
    exact le_trans (by linarith) (neg_le_abs _)

/-- The hypothesis of `C58_outside_partial` holds for the line from -1/2 to 5/2, which crosses both cubes. -/
example : (∀ cid a b xs p x, (rowQueries 2).cast cid a b = some xs → (p, x) ∈ xs →
      ∀ v ∈ [(-1 / 2 : ℚ), 5 / 2], (rowQueries 2).close v p = false ∧ 1 / 100 ≤ (rowQueries 2).dist p v) ∧
    rowRun true [-1 / 2, 5 / 2] [7] = .ok ([0, 1, 2, 5 / 2], [0, 0, 0], [0, 1, -1]) := by
  refine ⟨?_, by decide +kernel⟩
  intro cid a b xs p x hc hx v hv
  have hp : ∃ f : ℤ, p = f := by
    simp only [rowQueries] at hc
    split at hc
    · cases hc
    · cases hc
      obtain ⟨f, -, hf⟩ := List.mem_map.1 hx
      cases hf
      exact ⟨f, rfl⟩
  obtain ⟨f, rfl⟩ := hp
  have hd : (1 / 2 : ℚ) ≤ |v - f| := by
    simp only [List.mem_cons, List.not_mem_nil, or_false] at hv
    rcases hv with rfl | rfl
    · have := half_apart (-1) f
      norm_num at this ⊢
      exact this
    · have := half_apart 2 f
      norm_num at this ⊢
      exact this
  constructor
  · simp only [rowQueries, decide_eq_false_iff_not, not_le]
    linarith
  · simp only [rowQueries]
    rw [abs_sub_comm]
    linarith

/-- The claim C58 is false for a line that starts on the boundary: the segment in cell 0 is lost. -/
theorem C58_boundary_refuted :
    rowRun false [0, 3] [7] = .ok ([0, 1, 2, 3], [0, 0, 0], [0, 1, -1]) ∧
    rowRun true [0, 3] [7] = .ok ([1, 2, 3], [0, 0], [1, -1]) := by decide +kernel

/-- The claim C58 is false for a line that starts inside: the segment from 1/2 to 1, in cell 0, is lost. -/
theorem C58_inside_refuted :
    rowRun true [1 / 2, 3] [7] = .ok ([1, 2, 3], [0, 0], [1, -1]) ∧
    (rowQueries 2).contains 0 (1 / 2) = true := by decide +kernel

/-- The claim C77 is false for a line that starts inside: the segment from 1/2 to 1 gets -1, although it is in
cell 0. -/
theorem C77_inside_refuted :
    rowRun false [1 / 2, 3] [7] = .ok ([1 / 2, 1, 2, 3], [0, 0, 0], [-1, 1, -1]) ∧
    (rowQueries 2).contains 0 (1 / 2) = true ∧ (rowQueries 2).contains 0 1 = true := by decide +kernel

/-- The claim C77 is also false for a line whose first segment ends in the first cell: the entry is taken for
an exit, and all that follows gets -1, although the line crosses both cells. -/
theorem C77_entry_refuted :
    rowRun false [-1, 1 / 2, 3] [7, 8] = .ok ([-1, 0, 1 / 2, 3], [0, 0, 1], [-1, -1, -1]) := by decide +kernel

/-- The claim C78 is false for a line whose last segment lies in one cell: the line from -2 to -1, 1/4 and 3/4 is
returned without its part inside the mesh. -/
theorem C78_last_refuted :
    rowRun false [-2, -1, 1 / 4, 3 / 4] [7, 8, 9] = .ok ([-2, -1, 0], [0, 1], [-1, -1]) := by decide +kernel

/-- The claim C79 is false for a line given as one polyline cell: its single value is read at the number of the
segment. -/
theorem C79_polyline_refuted :
    rowRun false [-2, -1, 3] [7] = .error .indexError ∧
    rowRun false [-2, -1, 3] [7, 8] = .ok ([-2, -1, 0, 1, 2, 3], [0, 1, 1, 1, 1], [-1, -1, 0, 1, -1]) := by
  decide +kernel

end Gridder
