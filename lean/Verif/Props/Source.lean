import Verif.Inp.SourceRound
import Verif.Props.Fill
/-!
# Sources whose variables depend on one another: C101

`SOpt`, `Sourced`, `depClasses`, `onClasses` and `readSource` are specified in `Verif/Inp/SourceSpec.lean`, `SrcVal` in `Verif/Inp/SourceRound.lean`.
-/
set_option maxRecDepth 100000
namespace Props
open Py Types Inp

/-! ## C101 – variables of a source that depend on another one -/

/-- A source is read as its variables say, whatever blank space, equal signs and line breaks separate its entries: variables given by
entries, variables that depend on another one by a distribution, and times drawn from embedded distributions. Missing:
particles that depend on a variable and embedded distributions of other variables, for which the claim is false
(`C101_violated`). -/
theorem C101_read_partial (g0 w0 : Str) (l : List (Gap × Str)) (g1 : Str) (h : Spaced g0 w0 l g1) (os : List SOpt) (hk : lower w0 = c!"sdef")
    (he : entries l = optWords (os.map SOpt.opt)) (hs : Sourced os) :
    cardParse Tab.Sdef (g0 ++ (w0 ++ (body l ++ g1))) = (readSource os).map (fun v => (v, [])) :=
  source_read g0 w0 l g1 h os hk he hs

/-- `sdef pos=d1 erg=fpos=d2 &⏎ cel 3 tme=d1<d2`. -/
def dependent : List SOpt :=
  [.plain Tab.sdef_Pos_1 c!"pos" [c!"d1"], .dep Tab.sdef_Erg_2 c!"erg" Tab.sdef_f_Fpos c!"fpos" c!"d2", .plain Tab.sdef_Cel_0 c!"cel" [c!"3"],
    .time c!"tme" [c!"d1", c!"d2"]]

theorem dependent_sourced : Sourced dependent := by
  refine ⟨⟨by simp [rowSdef], by decide +kernel⟩, ⟨?_, ?_, by decide +kernel⟩, ⟨by simp [rowSdef], by decide +kernel⟩, ⟨rfl, by simp, ?_, ?_⟩, trivial⟩
  · have : (lower c!"erg", Tab.sdef_Erg_2) = (c!"erg", Tab.sdef_Erg_2) := rfl
    rw [this]
    simp [depClasses]
  · have : (lower c!"fpos", Tab.sdef_f_Fpos) = (c!"fpos", Tab.sdef_f_Fpos) := rfl
    rw [this]
    simp [onClasses]
  · intro n hn
    simp only [List.mem_cons, List.not_mem_nil, or_false] at hn
    rcases hn with rfl | rfl
    · exact ⟨'d', c!"1", .inl rfl, by simp, by decide, rfl⟩
    · exact ⟨'d', c!"2", .inl rfl, by simp, by decide, rfl⟩
  · intro w hw; cases hw

example : cardParse Tab.Sdef c!"sdef pos=d1 erg=fpos=d2 &\n cel 3 tme=d1<d2" = (readSource dependent).map (fun v => (v, [])) := by
  refine C101_read_partial [] c!"sdef" [(.ws c!" ", c!"pos"), (.eq [] [], c!"d1"), (.ws c!" ", c!"erg"), (.eq [] [], c!"fpos"), (.eq [] [], c!"d2"),
    (.ws c!" &\n ", c!"cel"), (.ws c!" ", c!"3"), (.ws c!" ", c!"tme"), (.eq [] [], c!"d1<d2")] [] ⟨.nil, by decide, ?_, .nil, by decide, by decide, by decide⟩
    dependent rfl rfl dependent_sourced
  intro p hp
  simp only [List.mem_cons, List.not_mem_nil, or_false] at hp
  rcases hp with rfl | rfl | rfl | rfl | rfl | rfl | rfl | rfl | rfl
  · exact ⟨⟨.sp .nil, by simp⟩, by decide⟩
  · exact ⟨⟨.nil, .nil⟩, by decide⟩
  · exact ⟨⟨.sp .nil, by simp⟩, by decide⟩
  · exact ⟨⟨.nil, .nil⟩, by decide⟩
  · exact ⟨⟨.nil, .nil⟩, by decide⟩
  · exact ⟨⟨.sp (.amp 0 (.sp .nil)), by simp⟩, by decide⟩
  · exact ⟨⟨.sp .nil, by simp⟩, by decide⟩
  · exact ⟨⟨.sp .nil, by simp⟩, by decide⟩
  · exact ⟨⟨.nil, .nil⟩, by decide⟩

/-- … and that is a source with these four variables. -/
example : (readSource dependent).map Val.str = .ok c!"sdef pos d1 erg fpos d2 cel 3 tme d1<d2" := by decide +kernel

/-- A source that is read holds at the place of every such variable exactly the variable it depends on with the number of its
distribution, and at the place of the time all its distributions in the order in which they are written. -/
theorem C101_holds (os : List SOpt) (v : Val) (h : readSource os = .ok v) :
    (∀ (i : Nat) c hd d kw n m, os[i]? = some (.dep c hd d kw n) → n = distStr m → m ≤ 9 →
      ∃ vs : List Val, v = .obj Tab.Sdef.info [.tuple vs] ∧ vs[i]? = some (.obj c.info [.obj d.info [.sc (.dist m)]])) ∧
    (∀ (i : Nat) hd ns, ∀ ms : List Nat, os[i]? = some (.time hd ns) → ns = ms.map distStr → (∀ m ∈ ms, m ≤ 9) →
      ∃ vs : List Val, v = .obj Tab.Sdef.info [.tuple vs] ∧
        vs[i]? = some (.obj Tab.sdef_Tme_1.info [.obj ⟨"Embedded", .embedded, [], ["distributions"]⟩ [.tuple (ms.map (fun m => .sc (.dist m)))]])) := by
  have main : ∀ (i : Nat) (o : SOpt), os[i]? = some o → ∃ (vs : List Val) (u : Val), v = .obj Tab.Sdef.info [.tuple vs] ∧ vs[i]? = some u ∧ o.read = .ok u := by
    intro i o ho
    unfold readSource at h
    cases os with
    | nil => cases ho
    | cons o0 os =>
      simp only at h
      cases hv : allOk ((o0 :: os).map SOpt.read) with
      | error e => rw [hv] at h; cases h
      | ok vs =>
        rw [hv] at h
        have hg := allOk_get hv
        have h2 : ((o0 :: os).map SOpt.read)[i]? = some o.read := by rw [List.getElem?_map, ho]; rfl
        rw [hg, List.getElem?_map] at h2
        cases hu : vs[i]? with
        | none => rw [hu] at h2; cases h2
        | some u =>
          rw [hu] at h2
          simp only [Option.map_some, Option.some.injEq] at h2
          exact ⟨vs, u, mk_obj h, hu, h2.symm⟩
  refine ⟨fun i c hd d kw n m ho hn hm => ?_, fun i hd ns ms ho hn hm => ?_⟩
  · obtain ⟨vs, u, h1, h2, h3⟩ := main i _ ho
    refine ⟨vs, h1, ?_⟩
    subst hn
    simp only [SOpt.read, readDep, (dist_stable hm).2.1] at h3
    cases hd' : d.mk' [.sc (.dist m)] with
    | error e => rw [hd'] at h3; cases h3
    | ok w =>
      rw [hd'] at h3
      rw [h2, mk_obj h3, mk_obj hd']
  · obtain ⟨vs, u, h1, h2, h3⟩ := main i _ ho
    refine ⟨vs, h1, ?_⟩
    subst hn
    have : (ms.map distStr).map distParse = ms.map .ok := by
      rw [List.map_map]
      exact List.map_congr_left (fun k hk => (dist_stable (hm k hk)).2.1)
    simp only [SOpt.read, readTime, this, allOk_ok] at h3
    rw [h2, mk_obj h3]

/-- The energy of the source above depends on its position by distribution 2. -/
example : ∃ (v : Val) (vs : List Val), readSource dependent = .ok v ∧ v = .obj Tab.Sdef.info [.tuple vs] ∧
    vs[1]? = some (.obj Tab.sdef_Erg_2.info [.obj Tab.sdef_f_Fpos.info [.sc (.dist 2)]]) := by
  obtain ⟨v, hv⟩ : ∃ v, readSource dependent = .ok v := by
    cases h : readSource dependent with
    | ok v => exact ⟨v, rfl⟩
    | error e =>
      have : (readSource dependent).map Val.str = .ok c!"sdef pos d1 erg fpos d2 cel 3 tme d1<d2" := by decide +kernel
      rw [h] at this
      cases this
  obtain ⟨vs, h1, h2⟩ := (C101_holds dependent v hv).1 1 _ _ _ _ _ 2 rfl (by decide) (by decide)
  exact ⟨v, vs, hv, h1, h2⟩

/-- A source made of such variables is printed and read back unchanged. Missing: as in `C101_read_partial`, and distributions
from 10 on. -/
theorem C101_roundtrip_partial (os : List (SOpt × Val)) (hos : ∀ x ∈ os, SrcVal x.1 x.2) (hs : Sourced (os.map (·.1))) (v : Val)
    (hmk : Tab.Sdef.mk' [optsVal (os.map (·.2))] = .ok v) :
    cardParse Tab.Sdef v.str = .ok (v, []) :=
  (source_round os hos hs v hmk).1

/-- `sdef erg fpos d2 tme d1<d3`. -/
example : ∃ v, Tab.Sdef.mk' [.tuple [.obj Tab.sdef_Erg_2.info [.obj Tab.sdef_f_Fpos.info [.sc (.dist 2)]],
      .obj Tab.sdef_Tme_1.info [.obj ⟨"Embedded", .embedded, [], ["distributions"]⟩ [.tuple [.sc (.dist 1), .sc (.dist 3)]]]]] = .ok v ∧
    v.str = c!"sdef erg fpos d2 tme d1<d3" ∧ cardParse Tab.Sdef v.str = .ok (v, []) := by
  refine ⟨_, rfl, by decide +kernel, ?_⟩
  refine C101_roundtrip_partial [(.dep Tab.sdef_Erg_2 c!"erg" Tab.sdef_f_Fpos c!"fpos" c!"d2", .obj Tab.sdef_Erg_2.info [.obj Tab.sdef_f_Fpos.info [.sc (.dist 2)]]),
    (.time c!"tme" [c!"d1", c!"d3"], .obj Tab.sdef_Tme_1.info [.obj ⟨"Embedded", .embedded, [], ["distributions"]⟩ [.tuple [.sc (.dist 1), .sc (.dist 3)]]])]
    ?_ ⟨⟨?_, ?_, by decide +kernel⟩, ⟨rfl, by simp, ?_, ?_⟩, trivial⟩ _ rfl
  · intro x hx
    simp only [List.mem_cons, List.not_mem_nil, or_false] at hx
    rcases hx with rfl | rfl
    · exact ⟨by decide, by decide, 2, _, by decide, by decide, rfl, rfl⟩
    · exact ⟨rfl, [1, 3], by decide, by simp, by decide, rfl⟩
  · have : (lower c!"erg", Tab.sdef_Erg_2) = (c!"erg", Tab.sdef_Erg_2) := rfl
    rw [this]
    simp [depClasses]
  · have : (lower c!"fpos", Tab.sdef_f_Fpos) = (c!"fpos", Tab.sdef_f_Fpos) := rfl
    rw [this]
    simp [onClasses]
  · intro n hn
    simp only [List.mem_cons, List.not_mem_nil, or_false] at hn
    rcases hn with rfl | rfl
    · exact ⟨'d', c!"1", .inl rfl, by simp, by decide, rfl⟩
    · exact ⟨'d', c!"3", .inl rfl, by simp, by decide, rfl⟩
  · intro w hw; cases hw

/-- The particle cannot depend on another variable: what follows `par` is read as the particle, and the distribution is lost
(src/pymcnp/inp/sdef/Par_0.py).  Embedded distributions in parentheses are refused, as are those of a cell; a distribution
from 10 on loses its last digits (C08). -/
theorem C101_violated :
    (cardParse Tab.Sdef c!"sdef par=fcel=d1").map (·.1.str) = .ok c!"sdef par fcel" ∧
    cardParse Tab.Sdef c!"sdef tme=(d1<d2)" = .error .inp ∧
    cardParse Tab.Sdef c!"sdef cel=(d1<d2<d3)" = .error .inp ∧
    (cardParse Tab.Sdef c!"sdef erg=fpos=d12").map (·.1.str) = .ok c!"sdef erg fpos d1" := by
  decide +kernel

end Props
