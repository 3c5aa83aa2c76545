import Verif.Inp.DepRead
/-!
# Reading the biases of photon production
-/
set_option maxRecDepth 100000
namespace Inp
open Py Types

/-- One row of the card: the nuclide, written as atomic number `u`, mass number `v` and library `x`, and its bias `w`. -/
structure BiasRow where
  u : Str
  v : Str
  x : Option Str
  w : Str

/-- The library as it stands in the text. -/
def library : Option Str → Str
  | none => []
  | some t => '.' :: t

/-- The nuclide as it stands in the text. -/
def BiasRow.nuclide (r : BiasRow) : Str := r.u ++ (r.v ++ library r.x)

structure BiasRow.Ok (r : BiasRow) : Prop where
  ud : Digits r.u
  ul : 1 ≤ r.u.length ∧ r.u.length ≤ 3
  vd : Digits r.v
  vl : r.v.length = 3
  xl : ∀ t ∈ r.x, t ≠ [] ∧ NoSpace t
  bias : Full numRe r.w
  nst : Stable r.nuclide
  wst : Stable r.w

/-- What a row is read as: the nuclide, and its atomic number as the bias. -/
def BiasRow.shifted (r : BiasRow) : Res Val :=
  match zaidParse r.nuclide with
  | .error e => .error e
  | .ok z => match intParse r.u with
    | .error e => .error e
    | .ok n => Tab.pikmt_Photonbias.mk' [.sc (.zaid z), .sc (.int n)]

/-- What a card of such rows is read as. -/
def readBiases (rs : List BiasRow) : Res Val :=
  match rs.mapM BiasRow.shifted with
  | .error e => .error e
  | .ok ys => Tab.Pikmt.mk' [.tuple ys]

def biasRe (n : Nat) : Re := .seq (.grp n (Kind.re (n + 1) .zaid)) (.seq (litRe c!" ") (.grp (n + 4) numRe))

theorem zaid_parts {n : Nat} {w : Str} {e} (h : Mt (Kind.re n .zaid) w e) : ∃ u v t y, w = u ++ (v ++ t) ∧ Digits u ∧ (1 ≤ u.length ∧ u.length ≤ 3) ∧
    Digits v ∧ v.length = 3 ∧ (∀ c ∈ t.head?, c = '.') ∧ e = y ++ [(n + 1, v), (n, u)] ∧ ∀ a ∈ y, n + 2 ≤ a.1 := by
  simp only [Kind.re] at h
  obtain ⟨u, v', x, y, h1, h2, rfl, rfl⟩ := mt_seq.1 h
  obtain ⟨v, t, x', y, h3, h4, rfl, rfl⟩ := mt_seq.1 h2
  have hu : (Digits u ∧ 1 ≤ u.length ∧ u.length ≤ 3) ∧ x = [(n, u)] := by
    simp only [d13, mt_grp, mt_seq, mt_opt, Re.digit, mt_cls] at h1
    obtain ⟨_, ⟨a, b, _, _, ⟨c, hc, rfl, rfl⟩, h1, rfl, rfl⟩, rfl⟩ := h1
    rcases h1 with ⟨rfl, rfl⟩ | ⟨_, _, _, _, ⟨d, hd, rfl, rfl⟩, h1, rfl, rfl⟩
    · simp [Digits, hc]
    · rcases h1 with ⟨rfl, rfl⟩ | ⟨d', hd', rfl, rfl⟩
      · simp [Digits, hc, hd]
      · simp [Digits, hc, hd, hd']
  have hv : (Digits v ∧ v.length = 3) ∧ x' = [(n + 1, v)] := by
    simp only [mt_grp, mt_seq, Re.digit, mt_cls] at h3
    obtain ⟨_, ⟨a, b, _, _, ⟨c, hc, rfl, rfl⟩, ⟨_, _, _, _, ⟨d, hd, rfl, rfl⟩, ⟨d', hd', rfl, rfl⟩, rfl, rfl⟩, rfl, rfl⟩, rfl⟩ := h3
    simp [Digits, hc, hd, hd']
  obtain ⟨⟨a1, a2⟩, rfl⟩ := hu
  obtain ⟨⟨b1, b2⟩, rfl⟩ := hv
  refine ⟨u, v, t, y, rfl, a1, a2, b1, b2, ?_, by simp, ?_⟩
  · rcases mt_opt.1 h4 with ⟨rfl, _⟩ | h
    · simp
    · obtain ⟨_, _, _, _, h5, _, rfl, _⟩ := mt_seq.1 h
      obtain ⟨d, hd, rfl, _⟩ := mt_cls.1 h5
      intro c hc
      simp at hc; subst hc
      simpa using hd
  · intro a ha
    rcases mt_opt.1 h4 with ⟨_, rfl⟩ | h
    · cases ha
    · obtain ⟨_, _, _, _, h5, h6, _, rfl⟩ := mt_seq.1 h
      obtain ⟨d, hd, rfl, rfl⟩ := mt_cls.1 h5
      obtain ⟨z, h7, rfl⟩ := mt_grp.1 h6
      obtain ⟨-, -, rfl⟩ := mt_plus_cls.1 h7
      simp at ha
      rw [ha]
      exact Nat.le_refl _

/-- Digits end where they end. -/
theorem nuclide_split {u u' v v' t t' : Str} (hu : Digits u) (hu' : Digits u') (hv : Digits v) (hv' : Digits v') (hl : v.length = 3) (hl' : v'.length = 3)
    (ht : ∀ c ∈ t.head?, c = '.') (ht' : ∀ c ∈ t'.head?, c = '.') (h : u ++ (v ++ t) = u' ++ (v' ++ t')) : u = u' := by
  have key : ∀ {a b t : Str}, Digits a → Digits b → (∀ c ∈ t.head?, c = '.') → (a ++ (b ++ t)).takeWhile isDigit = a ++ b := by
    intro a b t ha hb ht
    rw [← List.append_assoc, List.takeWhile_append_of_pos (by
      intro c hc
      rcases List.mem_append.1 hc with h | h
      · exact ha c h
      · exact hb c h)]
    cases t with
    | nil => simp
    | cons c t =>
      have := ht c rfl
      subst this
      rw [List.takeWhile_cons_of_neg (by decide)]
      simp
  have e := congrArg (List.takeWhile isDigit) h
  rw [key hu hv ht, key hu' hv' ht'] at e
  exact (List.append_inj' e (by rw [hl, hl'])).1

theorem zaid_full {r : BiasRow} (h : r.Ok) (n : Nat) : Full (Kind.re n .zaid) r.nuclide := by
  obtain ⟨u, v, x, w⟩ := r
  obtain ⟨ud, ul, vd, vl, xl, -, -, -⟩ := h
  simp only at ud ul vd vl xl
  have h1 : Full (Re.grp n d13) u := by
    rcases u with _ | ⟨a, _ | ⟨b, _ | ⟨c, _ | ⟨d, u⟩⟩⟩⟩
    · simp at ul
    · exact ⟨_, mt_grp.2 ⟨_, mt_seq.2 ⟨[a], [], [], [], mt_cls.2 ⟨a, ud a (by simp), rfl, rfl⟩, mt_opt.2 (.inl ⟨rfl, rfl⟩), rfl, rfl⟩, rfl⟩⟩
    · exact ⟨_, mt_grp.2 ⟨_, mt_seq.2 ⟨[a], [b], [], [], mt_cls.2 ⟨a, ud a (by simp), rfl, rfl⟩, mt_opt.2 (.inr (mt_seq.2 ⟨[b], [], [], [],
        mt_cls.2 ⟨b, ud b (by simp), rfl, rfl⟩, mt_opt.2 (.inl ⟨rfl, rfl⟩), rfl, rfl⟩)), rfl, rfl⟩, rfl⟩⟩
    · exact ⟨_, mt_grp.2 ⟨_, mt_seq.2 ⟨[a], [b, c], [], [], mt_cls.2 ⟨a, ud a (by simp), rfl, rfl⟩, mt_opt.2 (.inr (mt_seq.2 ⟨[b], [c], [], [],
        mt_cls.2 ⟨b, ud b (by simp), rfl, rfl⟩, mt_opt.2 (.inr (mt_cls.2 ⟨c, ud c (by simp), rfl, rfl⟩)), rfl, rfl⟩)), rfl, rfl⟩, rfl⟩⟩
    · simp at ul
  have h2 : Full (Re.grp (n + 1) (.seq .digit (.seq .digit .digit))) v := by
    rcases v with _ | ⟨a, _ | ⟨b, _ | ⟨c, _ | ⟨d, v⟩⟩⟩⟩ <;> simp at vl
    exact ⟨_, mt_grp.2 ⟨_, mt_seq.2 ⟨[a], [b, c], [], [], mt_cls.2 ⟨a, vd a (by simp), rfl, rfl⟩, mt_seq.2 ⟨[b], [c], [], [],
        mt_cls.2 ⟨b, vd b (by simp), rfl, rfl⟩, mt_cls.2 ⟨c, vd c (by simp), rfl, rfl⟩, rfl, rfl⟩, rfl, rfl⟩, rfl⟩⟩
  have h3 : Full (Re.opt true (.seq (.chr '.') (.grp (n + 2) (.plus true .nonspace)))) (library x) := by
    cases x with
    | none => exact ⟨_, mt_opt.2 (.inl ⟨rfl, rfl⟩)⟩
    | some t =>
      obtain ⟨t1, t2⟩ := xl t rfl
      obtain ⟨e, he⟩ := full_nonspace.2 ⟨t1, t2⟩
      exact ⟨_, mt_opt.2 (.inr (mt_seq.2 ⟨['.'], t, [], _, mt_cls.2 ⟨'.', rfl, rfl, rfl⟩, mt_grp.2 ⟨e, he, rfl⟩, rfl, rfl⟩))⟩
  obtain ⟨e1, h1⟩ := h1
  obtain ⟨e2, h2⟩ := h2
  obtain ⟨e3, h3⟩ := h3
  exact ⟨_, mt_seq.2 ⟨u, _, e1, _, h1, mt_seq.2 ⟨v, _, e2, e3, h2, h3, rfl, rfl⟩, rfl, rfl⟩⟩

theorem row_zaid (n : Nat) : Row (.grp n (Kind.re (n + 1) .zaid)) [Full (.grp n (Kind.re (n + 1) .zaid))] :=
  row_one (by show (Kind.re (n + 1) .zaid).free = true; exact (Kind.facts .zaid rfl (n + 1)).1) (by
      intro w e h
      obtain ⟨z, h, -⟩ := mt_grp.1 h
      exact noSp_mt (Kind.facts .zaid rfl (n + 1)).2.1 _ _ h) (by
      intro e h
      obtain ⟨z, h, -⟩ := mt_grp.1 h
      obtain ⟨u, v, t, y, h1, -, h2, -⟩ := zaid_parts h
      have := congrArg List.length h1
      simp at this
      omega) (tok_grp (tok_zaid (n + 1)) n)

theorem row_bias (n : Nat) : Row (biasRe n) [Full (.grp n (Kind.re (n + 1) .zaid)), Full (.grp (n + 4) numRe)] :=
  row_cons (row_zaid n) blank_lit
    (row_one (row_grp row_num (n + 4)).free (by
      intro w e h
      obtain ⟨z, h, -⟩ := mt_grp.1 h
      exact noSp_mt (Kind.facts .int rfl 1).2.1 _ _ h) (by
      intro e h
      obtain ⟨z, h, -⟩ := mt_grp.1 h
      exact (row_num.ok _ List.mem_cons_self [] ⟨_, h⟩).2 rfl) (row_grp row_num (n + 4)).tok)

theorem bias_groups (n : Nat) : (biasRe n).groupsIn n (n + 5) :=
  ⟨⟨Nat.le_refl _, by omega, (Kind.facts .zaid rfl (n + 1)).2.2.mono (by omega) (by show n + 1 + 3 ≤ _; omega)⟩, blank_lit.groups _ _,
    by omega, by omega, (Kind.facts .int rfl (n + 2)).2.2.mono (by omega) (by show n + 2 + 0 ≤ _; omega)⟩

theorem bias_all {r : BiasRow} (h : r.Ok) (n : Nat) : All2 [Full (.grp n (Kind.re (n + 1) .zaid)), Full (.grp (n + 4) numRe)] [r.nuclide, r.w] := by
  obtain ⟨e1, h1⟩ := zaid_full h (n + 1)
  obtain ⟨e2, h2⟩ := h.bias
  exact ⟨⟨_, mt_grp.2 ⟨_, h1, rfl⟩⟩, ⟨_, mt_grp.2 ⟨_, h2, rfl⟩⟩, trivial⟩

theorem library_head (x : Option Str) : ∀ c ∈ (library x).head?, c = '.' := by
  cases x <;> simp [library]

theorem bias_build {m : List (Nat × Str)} {a b : Str} (h1 : m.lookup 1 = some a) (h2 : m.lookup 2 = some b) (ha : NoSpace a ∧ a ≠ []) (hb : NoSpace b ∧ b ≠ []) :
    Tab.pikmt_Photonbias.build m =
      (match zaidParse a with
        | .error e => .error e
        | .ok z => match intParse b with
          | .error e => .error e
          | .ok n => Tab.pikmt_Photonbias.mk' [.sc (.zaid z), .sc (.int n)]) := by
  unfold Cls.build
  have b1 := attr_word Tab.pikmt_Photonbias.pat.ng m 0 ⟨"zaid", .base .zaid, false, some .isNone⟩ (by decide +kernel) rfl (some a) h1
    (by intro u hu; cases hu; exact ha)
  have b2 := attr_word Tab.pikmt_Photonbias.pat.ng m (0 + 1) ⟨"ipiki", .base .int, false, some .isNone⟩ (by decide +kernel) rfl (some b) h2
    (by intro u hu; cases hu; exact hb)
  have ha : Tab.pikmt_Photonbias.attrs = [⟨"zaid", .base .zaid, false, some .isNone⟩, ⟨"ipiki", .base .int, false, some .isNone⟩] := rfl
  rw [ha]
  simp only [attrVals]
  rw [b1, b2]
  have c1 : readVal ⟨"zaid", .base .zaid, false, some .isNone⟩ (Option.map (fun x => [x]) (some a)) = (zaidParse a).map (fun n => Val.sc (.zaid n)) := rfl
  have c2 : readVal ⟨"ipiki", .base .int, false, some .isNone⟩ (Option.map (fun x => [x]) (some b)) = (intParse b).map (fun n => Val.sc (.int n)) := rfl
  rw [c1, c2]
  cases zaidParse a with
  | error => rfl
  | ok n => cases intParse b <;> rfl

/-- A row is read without its bias. -/
theorem bias_shift {r : BiasRow} (h : r.Ok) : unionParse [Tab.pikmt_Photonbias] (join [' '] [r.nuclide, r.w]) = r.shifted := by
  obtain ⟨s1, s2⟩ := spaced_single r.nuclide [r.w] [] h.nst.entry (by intro u hu; simp only [List.mem_singleton] at hu; subst hu; exact h.wst) .nil
  have hp := (spaced_prep s1).2.1
  rw [single_body, s2, List.nil_append, List.append_nil] at hp
  rw [join_enc]
  refine union_one hp ?_
  have hre : Tab.pikmt_Photonbias.re = anchored (biasRe 1) := rfl
  have full := (row_bias 1).full r.nuclide [r.w] (bias_all h 1)
  obtain ⟨m, hm⟩ := Option.isSome_iff_exists.1 ((full_iff _ (row_bias 1).free _).2 full)
  obtain ⟨e, he, rfl⟩ := full_match (row_bias 1).free hm
  rw [hre, show anchored (biasRe 1) = .seq .bos (.seq (biasRe 1) .eos) from rfl, hm]
  simp only
  obtain ⟨u1, u2, x1, x2, n1, n2, e1, rfl⟩ := mt_seq.1 he
  obtain ⟨u2, u3, x2, x3, n3, n4, rfl, rfl⟩ := mt_seq.1 n2
  obtain ⟨rfl, rfl⟩ := (blank_lit.mt _ _).1 n3
  obtain ⟨z1, n5, rfl⟩ := mt_grp.1 n1
  obtain ⟨z3, n6, rfl⟩ := mt_grp.1 n4
  obtain ⟨rfl, e2⟩ := words_eq h.nst.entry.sp (noSp_mt (Kind.facts .zaid rfl 2).2.1 _ _ n5) (enc_bnd _)
    (by intro c hc; simp at hc; subst hc; decide) e1
  have hz3 : z3 = [] := n6.nil_caps (Kind.facts .int rfl 0).2.2
  subst hz3
  obtain ⟨u, v, t, y, k1, k2, k3, k4, k5, k6, rfl, k7⟩ := zaid_parts n5
  have hu : r.u = u := nuclide_split h.ud k2 h.vd k4 h.vl k5 (library_head r.x) k6 k1
  subst hu
  have hy2 : y.lookup 2 = none := by
    rw [List.lookup_eq_none_iff]
    intro p hp
    have := k7 p hp
    simp; omega
  have hune : r.u ≠ [] := by intro e; have := h.ul.1; rw [e] at this; simp at this
  exact bias_build (by simp [List.lookup]) (by simp [List.lookup, List.lookup_append, hy2]) ⟨h.nst.entry.sp, h.nst.entry.ne⟩
    ⟨fun c hc => h.nst.entry.sp c (by simp [BiasRow.nuclide, hc]), hune⟩

end Inp
