import Verif.Meshtal.RowLemmas
import Verif.Props.Geometry
/-! # C43 and C59: mesh tally rows -/
namespace Props
open Py Types Ptrac Meshtal

/-- The columns of a row have the widths of a row with all columns. -/
structure RowOk (t : Row) : Prop where
  energy : ∀ s, t.energy = some s → s.length = 9
  time : ∀ s, t.time = some s → s.length = 11
  x : ∀ s, t.x = some s → s.length = 9
  y : ∀ s, t.y = some s → s.length = 10
  z : ∀ s, t.z = some s → s.length = 10
  result : t.result.length = 12
  error : t.error.length = 12
  line : '\n' ∉ t.str

/-- Which of energy, time, x, y and z a row has. -/
def presence (t : Row) : List Bool := [t.energy.isSome, t.time.isSome, t.x.isSome, t.y.isSome, t.z.isSome]

/-- The combinations of columns that are read as they were written. -/
def readable : List (List Bool) :=
  [[true, true, true, true, true], [true, true, true, true, false], [true, true, true, false, false],
   [true, true, false, true, true], [true, true, false, true, false], [true, true, false, false, false],
   [true, false, true, true, true], [true, false, true, true, false], [true, false, true, false, false],
   [true, false, false, true, false], [true, false, false, false, false],
   [false, true, false, true, true], [false, true, false, true, false], [false, true, false, false, false],
   [false, false, false, true, false], [false, false, false, false, false]]

def cols (t : Row) : List (Option Str) := [t.energy, t.time, t.x, t.y, t.z]

def rowText (t : Row) : Str := texts (cols t) ++ (t.result ++ t.error)

theorem row_str (t : Row) : t.str = ' ' :: ' ' :: rowText t := by
  simp [Row.str, rowText, texts, cols]

theorem row_line {t : Row} (h : '\n' ∉ t.str) : '\n' ∉ rowText t := by
  rw [row_str] at h
  exact fun h' => h (by simp [h'])

/-- Cutting at the columns that were written. -/
theorem cut_cols : ∀ (ws : List Nat) (fs : List (Option Str)) (r : Str), fs.length = ws.length →
    (∀ p ∈ fs.zip ws, ∀ s, p.1 = some s → s.length = p.2) → cut ws (fs.map Option.isSome) (texts fs ++ r) = (fs, r)
  | [], [], r, _, _ => rfl
  | w :: ws, none :: fs, r, hl, h => by
    have := cut_cols ws fs r (by simpa using hl) (fun p hp => h p (by simp [hp]))
    have e : texts (none :: fs) ++ r = texts fs ++ r := by simp [texts, orBlank]
    rw [e]
    simp [cut, this]
  | w :: ws, some f :: fs, r, hl, h => by
    have := cut_cols ws fs r (by simpa using hl) (fun p hp => h p (by simp [hp]))
    have hf : f.length = w := h (some f, w) (by simp) f rfl
    subst hf
    have e : texts (some f :: fs) ++ r = f ++ (texts fs ++ r) := by simp [texts, orBlank]
    rw [e]
    simp [cut, this]

theorem cut_row {t : Row} (h : RowOk t) : cut widths (presence t) (rowText t) = (cols t, t.result ++ t.error) := by
  refine cut_cols widths (cols t) _ rfl ?_
  intro p hp s hs
  simp only [cols, widths, List.zip_cons_cons, List.zip_nil_right, List.mem_cons, List.not_mem_nil, or_false] at hp
  rcases hp with rfl | rfl | rfl | rfl | rfl
  · exact h.energy s hs
  · exact h.time s hs
  · exact h.x s hs
  · exact h.y s hs
  · exact h.z s hs

/-- The width of the chosen columns. -/
def wsum : List Nat → List Bool → Nat
  | w :: ws, true :: bs => w + wsum ws bs
  | _ :: ws, false :: bs => wsum ws bs
  | _, _ => 0

theorem row_length {t : Row} (h : RowOk t) : (rowText t).length = wsum widths (presence t) + 24 := by
  have h1 := h.energy; have h2 := h.time; have h3 := h.x; have h4 := h.y; have h5 := h.z
  have h6 := h.result; have h7 := h.error
  obtain ⟨e, ti, x, y, z, r, er⟩ := t
  simp only at h1 h2 h3 h4 h5 h6 h7
  rcases e with _ | e <;> rcases ti with _ | ti <;> rcases x with _ | x <;> rcases y with _ | y <;> rcases z with _ | z <;>
    simp_all [rowText, texts, cols, orBlank, wsum, widths, presence] <;> omega

theorem presence_choose : ∀ a b c d e : Bool,
    choose (· == 24) widths (wsum widths [a, b, c, d, e] + 24) = some [a, b, c, d, e] ↔ [a, b, c, d, e] ∈ readable := by
  decide +kernel

theorem rowOf_cols {t : Row} (h : RowOk t) : rowOf (cols t, t.result ++ t.error) = t := by
  obtain ⟨e, ti, x, y, z, r, er⟩ := t
  have h6 := h.result; have h7 := h.error
  simp only at h6 h7
  simp [rowOf, cols, ← h6]
  exact List.take_of_length_le (by omega)

/-- **C59** (columns stay in place): a row whose columns have these widths reads back as itself exactly for sixteen of
the thirty-two combinations of columns. Missing: the other sixteen combinations, for which the claim is false
(`C59_xyz_violated`). -/
theorem C59_row_columns_partial {t : Row} (h : RowOk t) : rowParse t.str = .ok t ↔ presence t ∈ readable := by
  rw [row_str]
  have hr := row_read (rowText t) [] (row_line h.line) (.inl rfl)
  rw [List.append_nil] at hr
  rw [hr, row_length h]
  have key : presence t ∈ readable ↔ choose (· == 24) widths (wsum widths (presence t) + 24) = some (presence t) :=
    (presence_choose _ _ _ _ _).symm
  rw [key]
  constructor
  · intro hq
    cases hc : choose (· == 24) widths (wsum widths (presence t) + 24) with
    | none => rw [hc] at hq; simp at hq
    | some bs =>
      rw [hc] at hq
      simp only [Except.ok.injEq] at hq
      have hcu := cut_widths (rowText t) rfl ((row_length h).symm ▸ hc)
      have hl : bs.length = 5 := choose_length hc
      congr 1
      rw [← hcu.1]
      have hl2 : (cut widths bs (rowText t)).1.length = 5 := by
        rw [← List.length_map (f := Option.isSome), hcu.1, hl]
      match hm : (cut widths bs (rowText t)).1, hl2 with
      | [a, b, c, d, e], _ =>
        have : cut widths bs (rowText t) = ([a, b, c, d, e], (cut widths bs (rowText t)).2) := by rw [← hm]
        rw [this, rowOf] at hq
        rw [← hq]; rfl
  · intro hq
    rw [hq]
    simp only
    rw [cut_row h, rowOf_cols h]

/-- A row of a mesh with all of x, y and z, as MCNP writes it: result and error stay, the coordinates are read as energy,
time and x. -/
theorem C59_xyz_violated : ∃ t : Row, RowOk t ∧ presence t = [false, false, true, true, true] ∧
    ∃ t', rowParse t.str = .ok t' ∧ t'.energy = t.x ∧ t'.x ≠ t.x ∧ t'.y = none ∧ t'.z = none := by
  refine ⟨⟨none, none, some c!"  -90.000", some c!"   -90.000", some c!"  -149.500", c!" 2.39849E+00", c!" 1.03047E-01"⟩, ?_, rfl,
    ⟨some c!"  -90.000", some c!"   -90.000 ", some c!" -149.500", none, none, c!" 2.39849E+00", c!" 1.03047E-01"⟩, ?_, rfl, by decide, rfl, rfl⟩
  · constructor <;> simp [Row.str, orBlank]
  · decide +kernel

/-- What is read has these widths. -/
theorem row_ok {s : Str} {t : Row} (h : rowParse s = .ok t) : RowOk t ∧ ∃ R, (R = [] ∨ R = ['\n']) ∧ s = t.str ++ R := by
  obtain ⟨u, R, rfl, hu, hR⟩ := row_shape h
  rw [row_read u R hu hR] at h
  cases hc : choose (· == 24) widths u.length with
  | none => rw [hc] at h; cases h
  | some bs =>
    rw [hc] at h
    simp only [Except.ok.injEq] at h
    obtain ⟨h1, h2⟩ := cut_widths u rfl hc
    have hl2 : (cut widths bs u).1.length = 5 := by
      rw [← List.length_map (f := Option.isSome), h1, choose_length hc]; rfl
    have hcut := cut_texts widths bs u
    have hr : (cut widths bs u).2.length = 24 := by
      have := choose_acc u rfl hc
      simpa using this
    match hm : (cut widths bs u).1, hl2 with
    | [a, b, c, d, e], _ =>
      have e1 : cut widths bs u = ([a, b, c, d, e], (cut widths bs u).2) := by rw [← hm]
      rw [hm] at h2 hcut
      rw [e1, rowOf] at h
      subst h
      obtain ⟨v, hv⟩ : ∃ v, v = (cut widths bs u).2 := ⟨_, rfl⟩
      rw [← hv] at hr hcut
      have e2 : [a, b, c, d, e][0]?.join = a ∧ [a, b, c, d, e][1]?.join = b ∧ [a, b, c, d, e][2]?.join = c ∧
        [a, b, c, d, e][3]?.join = d ∧ [a, b, c, d, e][4]?.join = e := ⟨rfl, rfl, rfl, rfl, rfl⟩
      obtain ⟨e3, e4, e5, e6, e7⟩ := e2
      rw [e3, e4, e5, e6, e7, ← hv]
      have e8 : (v.drop 12).take 12 = v.drop 12 := List.take_of_length_le (by simp; omega)
      rw [e8]
      have es : rowText ⟨a, b, c, d, e, v.take 12, v.drop 12⟩ = u := by
        rw [rowText, cols, List.take_append_drop]; exact hcut
      refine ⟨⟨?_, ?_, ?_, ?_, ?_, by simp; omega, by simp; omega, ?_⟩, R, hR, ?_⟩
      · exact h2 (a, 9) (by simp [widths])
      · exact h2 (b, 11) (by simp [widths])
      · exact h2 (c, 9) (by simp [widths])
      · exact h2 (d, 10) (by simp [widths])
      · exact h2 (e, 10) (by simp [widths])
      · rw [row_str, es]; simpa using hu
      · rw [row_str, es]; rfl

/-- **C43** (mesh tally rows): whatever columns the reader found, printing gives the characters it read, except for a
final line end, and reading them again gives the same row. -/
theorem C43_row_roundtrip {s : Str} {t : Row} (h : rowParse s = .ok t) :
    rowParse t.str = .ok t ∧ (s = t.str ∨ s = t.str ++ ['\n']) := by
  obtain ⟨hok, R, hR, rfl⟩ := row_ok h
  have hl := row_line hok.line
  refine ⟨?_, hR.imp (fun e => by rw [e, List.append_nil]) (fun e => by rw [e])⟩
  have h1 := row_read _ R hl hR
  have h2 := row_read _ [] hl (.inl rfl)
  rw [List.append_nil] at h2
  rw [row_str] at h ⊢
  rw [List.cons_append, List.cons_append] at h
  rw [h2, ← h1, h]

/-- The columns of rows that are read have these widths and are one of the sixteen combinations. -/
theorem C43_row_read {s : Str} {t : Row} (h : rowParse s = .ok t) : RowOk t ∧ presence t ∈ readable :=
  have hok := (row_ok h).1
  ⟨hok, (C59_row_columns_partial hok).1 (C43_row_roundtrip h).1⟩

example : rowParse c!"  1.000E-02     1.000     1.000   -90.000  -149.500 2.39849E+00 1.03047E-01\n" =
    .ok ⟨some c!"1.000E-02", some c!"     1.000 ", some c!"    1.000", some c!"   -90.000", some c!"  -149.500",
      c!" 2.39849E+00", c!" 1.03047E-01"⟩ := by decide +kernel

end Props
