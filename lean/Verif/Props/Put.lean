import Verif.Inp.PutLemmas
/-!
# C88: the contents of an object decide whether it is valid

Attributes can be assigned one by one (setters) or all at once (constructor).  For 672 of the 679 classes, and for the plane
through three points, an assignment is accepted exactly when an object with the resulting contents can be constructed, and
fails with the same exception otherwise.  For the other six it is not so.
-/
set_option maxRecDepth 100000
namespace Props
open Py Types Inp

/-- The classes with a test that looks at other attributes. -/
def linkedClasses : List Cls :=
  [Tab.mplot_Xlims, Tab.mplot_Ylims, Tab.ssr_Bcw, Tab.surface_P_1, Tab.Cell, Tab.Kcode, Tab.Surface]

/-- The other classes. -/
def freeClasses : List Cls := Tab.classes.filter (fun c => !(linkedClasses.map (·.info)).contains c.info)

theorem free_count : freeClasses.length = 672 := by decide +kernel

theorem free_local {c : Cls} (h : c ∈ freeClasses) : c.isLocal = true := by
  have : freeClasses.all Cls.isLocal = true := by decide +kernel
  exact List.all_eq_true.1 this c h

/-- The contents of an object of a class: one value for each attribute, accepted by the constructor. -/
def Valid (c : Cls) (vs : List Val) : Prop := vs.length = c.attrs.length ∧ c.mk' vs = .ok (.obj c.info vs)

theorem mk_obj {c : Cls} {vs : List Val} {o : Val} (h : c.mk' vs = .ok o) : o = .obj c.info vs := by
  unfold Cls.mk' at h
  split at h <;> cases h
  rfl

/-- An assignment is accepted exactly when the constructor accepts the new contents, with the same exception otherwise. -/
def Agrees (c : Cls) : Prop :=
  ∀ vs, Valid c vs → ∀ i < c.attrs.length, ∀ v, c.put vs i v = (c.mk' (vs.set i v)).map (fun _ => vs.set i v)

/-- **C88**: assigning a value to an attribute of an object is accepted exactly when an object with the new contents can be constructed,
and raises the same exception otherwise; for 672 of the 679 classes.  Missing: the other seven (see `C88_plane` for one of them and
`C88_violated` for six). -/
theorem C88_contents_partial {c : Cls} (hc : c ∈ freeClasses) : Agrees c :=
  fun _ h _ hi v => put_local (free_local hc) h.1 h.2 hi v

theorem free_mem {c : Cls} (h : c ∈ Tab.classes) (hn : (linkedClasses.map (·.info)).contains c.info = false) : c ∈ freeClasses :=
  List.mem_filter.2 ⟨h, by rw [hn]; rfl⟩

/-- A card with `npp` 5: assigning 7 is accepted, assigning a negative number is refused. -/
example : Tab.Nps ∈ freeClasses ∧ Valid Tab.Nps [.sc (.int (.num 5)), .none] ∧
    Tab.Nps.put [.sc (.int (.num 5)), .none] 0 (.sc (.int (.num 7))) = .ok [.sc (.int (.num 7)), .none] ∧
    Tab.Nps.put [.sc (.int (.num 5)), .none] 0 (.sc (.int (.num (-7)))) = .error .inp := by
  refine ⟨free_mem ?_ (by decide +kernel), ⟨rfl, by decide +kernel⟩, by decide +kernel, by decide +kernel⟩
  simp only [Tab.classes, Tab.classesCards, Tab.sourcesCards4, List.map_cons, List.mem_append, List.mem_cons, true_or, or_true]

/-- **C88**: the same for the plane through three points, whose nine tests each look at all nine coordinates. -/
theorem C88_plane : Agrees Tab.surface_P_1 := by
  intro vs h i hi v
  have hl : vs.length = 9 := h.1
  refine plane_agrees vs hl ?_ i hi v
  obtain ⟨v1, v2, v3, v4, v5, v6, v7, v8, v9, rfl⟩ := nine hl
  have hm := h.2
  unfold Cls.mk' at hm
  rw [plane_run] at hm
  cases hn : [v1, v2, v3, v4, v5, v6, v7, v8, v9].any isNil with
  | false => rfl
  | true => rw [hn] at hm; cases hm

/-- A whole number as a real value and as an integer value. -/
def realOf (n : Nat) : Val := .sc (.real (.num (.fin ⟨false, n, 0⟩)))
def intOf (n : Int) : Val := .sc (.int (.num n))

/-- The points (0,0,0), (1,0,0), (0,1,0): moving the last one to (0,3,0) is accepted, moving it to (0,0,0) is refused. -/
example : Valid Tab.surface_P_1 ([0, 0, 0, 1, 0, 0, 0, 1, 0].map realOf) ∧
    Tab.surface_P_1.put ([0, 0, 0, 1, 0, 0, 0, 1, 0].map realOf) 7 (realOf 3) = .ok ([0, 0, 0, 1, 0, 0, 0, 3, 0].map realOf) ∧
    Tab.surface_P_1.put ([0, 0, 0, 1, 0, 0, 0, 1, 0].map realOf) 7 (realOf 0) = .error .inp := by
  refine ⟨⟨rfl, ?_⟩, ?_, ?_⟩ <;> decide +kernel

theorem assign_valid {c : Cls} (hc : Agrees c) {vs ws : List Val} (h : Valid c vs) {i : Nat} {x : Given} (ha : c.assign vs i x = .ok ws) :
    Valid c ws := by
  unfold Cls.assign at ha
  cases hat : c.attrs[i]? with
  | none => rw [hat] at ha; cases ha
  | some a =>
    rw [hat] at ha
    simp only at ha
    cases hv : x.conv a with
    | error e => rw [hv] at ha; cases ha
    | ok v =>
      rw [hv] at ha
      simp only at ha
      have hi : i < c.attrs.length := by
        rcases Nat.lt_or_ge i c.attrs.length with h | h
        · exact h
        · rw [List.getElem?_eq_none h] at hat; cases hat
      rw [hc vs h i hi v] at ha
      cases ho : c.mk' (vs.set i v) with
      | error e => rw [ho] at ha; cases ha
      | ok o =>
        rw [ho] at ha
        cases ha
        exact ⟨by rw [List.length_set]; exact h.1, by rw [ho, mk_obj ho]⟩

/-- **C88**: after any sequence of assignments (`None`, objects, whole numbers, texts, lists; accepted or not), an object can be constructed anew
from its contents. Missing: the six classes that test one attribute against another, for which the claim is false
(`C88_violated`). -/
theorem C88_history_partial {c : Cls} (hc : Agrees c) {vs : List Val} (h : Valid c vs) (ops : List (Nat × Given)) :
    Valid c (c.assigns vs ops) := by
  induction ops generalizing vs with
  | nil => exact h
  | cons op ops ih =>
    obtain ⟨i, x⟩ := op
    unfold Cls.assigns
    cases ha : c.assign vs i x with
    | error e => exact ih h
    | ok ws => exact ih (assign_valid hc h ha)

/-- A card is assigned 7, a negative number (refused), text that is no number (refused) and text. -/
example : Tab.Nps.assigns [intOf 5, .none] [(0, .one (.int 7)), (0, .one (.int (-7))), (0, .one (.str c!"x")), (1, .one (.str c!"3"))] =
    [intOf 7, intOf 3] := by decide +kernel

/-- An assignment that is accepted though the constructor refuses the new contents. -/
def Slips (c : Cls) (vs : List Val) (i : Nat) (v : Val) : Prop :=
  Valid c vs ∧ i < c.attrs.length ∧ c.put vs i v = .ok (vs.set i v) ∧ c.mk' (vs.set i v) = .error .inp

theorem slips_violates {c : Cls} {vs : List Val} {i : Nat} {v : Val} (h : Slips c vs i v) : ¬ Agrees c := by
  intro ha
  have := ha vs h.1 i h.2.1 v
  rw [h.2.2.1, h.2.2.2] at this
  cases this

/-- **C88 fails** for the other six classes: a lower limit can be raised above the upper one, the lower end of a cylinder above the upper
one, a cell can be given a material without a density, a `KCODE` card fewer source points than its `MSRK` allows, and a surface with a
number beyond 99999999 can lose its transformation. -/
theorem C88_violated : Slips Tab.mplot_Xlims [realOf 1, realOf 2, .none] 0 (realOf 3) ∧
    Slips Tab.mplot_Ylims [realOf 1, realOf 2, .none] 0 (realOf 3) ∧
    Slips Tab.ssr_Bcw [realOf 1, realOf 2, realOf 3] 1 (realOf 4) ∧
    Slips Tab.Cell [intOf 1, intOf 0, .none, .sc (.geo (.digit c!"1")), .none] 1 (intOf 5) ∧
    Slips Tab.Kcode [intOf 1000, .none, .none, .none, intOf 30000, .none, .none, .none] 0 (intOf 10) ∧
    Slips Tab.Surface [.none, intOf 100000000, intOf 1, .obj Tab.surface_Px.info [realOf 1]] 2 .none := by
  unfold Slips Valid
  refine ⟨⟨⟨?_, ?_⟩, ?_, ?_, ?_⟩, ⟨⟨?_, ?_⟩, ?_, ?_, ?_⟩, ⟨⟨?_, ?_⟩, ?_, ?_, ?_⟩, ⟨⟨?_, ?_⟩, ?_, ?_, ?_⟩, ⟨⟨?_, ?_⟩, ?_, ?_, ?_⟩,
    ⟨⟨?_, ?_⟩, ?_, ?_, ?_⟩⟩ <;> decide +kernel

end Props
