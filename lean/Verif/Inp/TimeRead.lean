import Verif.Inp.SourceRead
import Verif.Inp.CaseLemmas
/-!
# Times drawn from one or more distributions
-/
set_option maxRecDepth 100000
namespace Inp
open Py Types

theorem dist_digit {c : Char} (h : c = 'd' ∨ c = 'D') : (c == 'd' || c == 'D') = true ∧ (c == '<') = false ∧ lowerC c ≠ lowerC ' ' ∧ lowerC c ≠ lowerC '<' := by
  rcases h with rfl | rfl <;> decide

/-- A distribution ends before anything but a digit. -/
theorem dist_run (n : Nat) {w : Str} (hw : DistWord w) (rest : Str) (hr : ∀ x xs, rest = x :: xs → isDigit x = false) (prev caps) (k : St → Option St)
    (hk : ∀ e, (k ⟨w.reverse ++ prev, rest, e⟩).isSome = true) :
    ∃ e, run (Kind.re n .dist) ⟨prev, w ++ rest, caps⟩ k = k ⟨w.reverse ++ prev, rest, e⟩ := by
  obtain ⟨c, v, hc, hne, hall, rfl⟩ := hw
  obtain ⟨hc, -⟩ := dist_digit hc
  obtain ⟨d, t, rfl⟩ := List.exists_cons_of_ne_nil hne
  refine ⟨(n, d :: t) :: caps, ?_⟩
  obtain ⟨x, hx⟩ := Option.isSome_iff_exists.1 (hk ((n, d :: t) :: caps))
  have : run (.seq (.cls (fun c => c == 'd' || c == 'D')) (.grp n (.plus true .digit))) ⟨prev, c :: d :: t ++ rest, caps⟩ k = some x := by
    simp only [run_seq, run_grp, Re.plus, List.cons_append, run_cls_cons, hc, if_true, Re.digit,
      hall d (by simp)]
    refine run_star_cls_full isDigit t rest (d :: c :: prev) caps _ x (fun a ha => hall a (by simp [ha])) hr ?_
    have ht := take_consumed (d :: t) rest
    simp only [List.cons_append] at ht
    simp only [ht]
    rw [← hx]; simp
  simp only [Kind.re]
  rw [run_alt, this, hx]
  rfl

/-- `(?: ?< ?` and a distribution. -/
def embBody (n : Nat) : Re := .seq (.opt true (litRe c!" ")) (.seq (litRe c!"<") (.seq (.opt true (litRe c!" ")) (Kind.re n .dist)))

theorem emb_re (n : Nat) : embeddedPat.re n = .grp n (.seq (Kind.re (n + 1) .dist) (.star true (embBody (n + 2)))) := rfl

theorem body_no (n : Nat) (rest : List Str) (hr : ∀ w, rest.head? = some w → w ≠ [] ∧ w.head? ≠ some '<') (prev caps) (k : St → Option St) :
    run (embBody n) ⟨prev, enc rest, caps⟩ k = none := by
  have hlt : ∀ prev s caps (k : St → Option St) (r : Re), (∀ x xs, s = x :: xs → x ≠ '<') → run (.seq (litRe c!"<") r) ⟨prev, s, caps⟩ k = none := by
    intro prev s caps k r hs
    cases s with
    | nil => rfl
    | cons x xs =>
      rw [run_seq]
      have hx := hs x xs rfl
      refine run_lit_no '<' x [] (fun h => hx ?_) ..
      rcases lowerC_split x with ⟨h', -⟩ | ⟨y, hy, rfl, h'⟩
      · rw [h'] at h; exact h
      · rw [h'] at h
        exact absurd (h ▸ hy) (by decide)
  unfold embBody
  rw [run_seq, run_opt_greedy]
  cases rest with
  | nil => rfl
  | cons w rest =>
    obtain ⟨h1, h2⟩ := hr w rfl
    obtain ⟨c, t, rfl⟩ := List.exists_cons_of_ne_nil h1
    rw [enc_cons, hlt _ _ _ _ _ (by intro x xs e; simp at e; rw [← e.1]; decide), Option.or_none]
    have : run (litRe c!" ") ⟨prev, ' ' :: (c :: t ++ enc rest), caps⟩ (fun st' => run (.seq (litRe c!"<") (.seq (.opt true (litRe c!" ")) (Kind.re n .dist))) st' k) =
        run (.seq (litRe c!"<") (.seq (.opt true (litRe c!" ")) (Kind.re n .dist))) ⟨' ' :: prev, c :: t ++ enc rest, caps⟩ k :=
      run_lit_ok c!" " c!" " rfl prev (c :: t ++ enc rest) caps _
    rw [this]
    exact hlt _ _ _ _ _ (by intro x xs e; simp at e; rw [← e.1]; simpa using h2)

theorem emb_star (n : Nat) (rest : List Str) (hr : ∀ w, rest.head? = some w → w ≠ [] ∧ w.head? ≠ some '<') (k : St → Option St) :
    ∀ (ns : List Str), (∀ w ∈ ns, DistWord w) → ∀ (prev : Str) (caps),
    (∀ e, (k ⟨(ns.flatMap (fun w => '<' :: w)).reverse ++ prev, enc rest, e⟩).isSome = true) →
    ∃ e, run (.star true (embBody n)) ⟨prev, ns.flatMap (fun w => '<' :: w) ++ enc rest, caps⟩ k =
      k ⟨(ns.flatMap (fun w => '<' :: w)).reverse ++ prev, enc rest, e⟩ := by
  intro ns
  induction ns with
  | nil =>
    intro _ prev caps hk
    refine ⟨caps, ?_⟩
    rw [run_star_greedy]
    simp only [List.flatMap_nil, List.nil_append, List.reverse_nil]
    rw [body_no n rest hr]
    rfl
  | cons w ns ih =>
    intro hns prev caps hk
    have hw := hns w (by simp)
    obtain ⟨c, v, hc, hne, hall, hwe⟩ := hw
    obtain ⟨hc0, hc1, hc2, hc3⟩ := dist_digit hc
    have e1 : (w :: ns).flatMap (fun w => '<' :: w) ++ enc rest = '<' :: (w ++ (ns.flatMap (fun w => '<' :: w) ++ enc rest)) := by simp
    have e2 : ((w :: ns).flatMap (fun w => '<' :: w)).reverse ++ prev = (ns.flatMap (fun w => '<' :: w)).reverse ++ (w.reverse ++ '<' :: prev) := by simp
    rw [e2] at hk ⊢
    rw [e1, run_star_greedy]
    let K := starNext (embBody n) ('<' :: (w ++ (ns.flatMap (fun w => '<' :: w) ++ enc rest))).length k
    have hK : ∀ e, K ⟨w.reverse ++ '<' :: prev, ns.flatMap (fun w => '<' :: w) ++ enc rest, e⟩ =
        run (.star true (embBody n)) ⟨w.reverse ++ '<' :: prev, ns.flatMap (fun w => '<' :: w) ++ enc rest, e⟩ k := by
      intro e
      show (if _ then _ else _) = _
      rw [if_pos]
      simp only [List.length_cons, List.length_append]
      omega
    have ih' := fun caps => ih (fun w h => hns w (by simp [h])) (w.reverse ++ '<' :: prev) caps hk
    have hrest : ∀ x xs, ns.flatMap (fun w => '<' :: w) ++ enc rest = x :: xs → isDigit x = false := by
      intro x xs e
      cases ns with
      | nil =>
        cases rest with
        | nil => cases e
        | cons a rest => simp [enc_cons] at e; rw [← e.1]; decide
      | cons a ns => simp at e; rw [← e.1]; decide
    obtain ⟨e, he⟩ := dist_run n (hns w (by simp)) (ns.flatMap (fun w => '<' :: w) ++ enc rest) hrest ('<' :: prev) caps K (fun e => by
      rw [hK]
      obtain ⟨e', he'⟩ := ih' e
      rw [he']
      exact hk _)
    obtain ⟨e', he'⟩ := ih' e
    refine ⟨e', ?_⟩
    have hbody : run (embBody n) ⟨prev, '<' :: (w ++ (ns.flatMap (fun w => '<' :: w) ++ enc rest)), caps⟩ K =
        k ⟨(ns.flatMap (fun w => '<' :: w)).reverse ++ (w.reverse ++ '<' :: prev), enc rest, e'⟩ := by
      unfold embBody
      rw [run_seq, run_opt_greedy, run_lit_no ' ' '<' [] (by decide), Option.none_or, run_seq]
      have := run_lit_ok (α := St) c!"<" c!"<" rfl prev (w ++ (ns.flatMap (fun w => '<' :: w) ++ enc rest)) caps (fun st' => run (.seq (.opt true (litRe c!" ")) (Kind.re n .dist)) st' K)
      rw [List.singleton_append] at this
      rw [this, run_seq, run_opt_greedy, hwe, List.cons_append, run_lit_no ' ' c [] hc2, Option.none_or]
      rw [hwe, List.cons_append] at he
      show run (Kind.re n .dist) ⟨'<' :: prev, _, caps⟩ K = _
      rw [he]
      rw [hwe] at hK he'
      rw [hK, he']
    exact or_taken hbody (hk _)

theorem join_lt (w : Str) (ns : List Str) : join ['<'] (w :: ns) = w ++ ns.flatMap (fun w => '<' :: w) := by
  induction ns generalizing w with
  | nil => simp [join]
  | cons v ns ih =>
    have : join ['<'] (w :: v :: ns) = w ++ '<' :: join ['<'] (v :: ns) := by simp [join]
    rw [this, ih]
    simp

/-- The distributions, each embedded in the next, end before a word that does not begin with `<`. -/
theorem emb_run (n : Nat) (w : Str) (ns : List Str) (hns : ∀ v ∈ w :: ns, DistWord v) (rest : List Str) (hr : ∀ w, rest.head? = some w → w ≠ [] ∧ w.head? ≠ some '<')
    (prev : Str) (caps) (k : St → Option St) (hk : ∀ e, (k ⟨(join ['<'] (w :: ns)).reverse ++ prev, enc rest, e⟩).isSome = true) :
    ∃ e, run (embeddedPat.re n) ⟨prev, join ['<'] (w :: ns) ++ enc rest, caps⟩ k = k ⟨(join ['<'] (w :: ns)).reverse ++ prev, enc rest, e⟩ := by
  rw [join_lt] at hk ⊢
  rw [emb_re, run_grp, run_seq, List.append_assoc]
  have e2 : (w ++ ns.flatMap (fun w => '<' :: w)).reverse ++ prev = (ns.flatMap (fun w => '<' :: w)).reverse ++ (w.reverse ++ prev) := by simp
  rw [e2] at hk ⊢
  let K : St → Option St := fun st' => k { st' with caps := (n, (w ++ (ns.flatMap (fun w => '<' :: w) ++ enc rest)).take
      ((w ++ (ns.flatMap (fun w => '<' :: w) ++ enc rest)).length - st'.rest.length)) :: st'.caps }
  have hstar := fun caps => emb_star (n + 2) rest hr K ns (fun v h => hns v (by simp [h])) (w.reverse ++ prev) caps (fun e => hk _)
  have hrest : ∀ x xs, ns.flatMap (fun w => '<' :: w) ++ enc rest = x :: xs → isDigit x = false := by
    intro x xs e
    cases ns with
    | nil =>
      cases rest with
      | nil => cases e
      | cons a rest => simp [enc_cons] at e; rw [← e.1]; decide
    | cons a ns => simp at e; rw [← e.1]; decide
  obtain ⟨e, he⟩ := dist_run (n + 1) (hns w (by simp)) _ hrest prev caps (fun st' => run (.star true (embBody (n + 2))) st' K) (fun e => by
    obtain ⟨e', he'⟩ := hstar e
    simp only [he']
    exact hk _)
  obtain ⟨e', he'⟩ := hstar e
  exact ⟨_, he.trans he'⟩

theorem full_run {r : Re} (hf : r.free = true) {s : Str} {e} {p} (h : run r ⟨[], s, []⟩ some = some ⟨p, [], e⟩) : Full r s := by
  obtain ⟨st', h1, h2⟩ := (run_spec r _ _).2 _ h
  simp only [Option.some.injEq] at h2
  obtain ⟨u, e', m1, m2, -, -⟩ := h1.mt hf
  rw [h2] at m2
  simp only [List.append_nil] at m2
  exact ⟨e', by rw [m2]; exact m1⟩

theorem emb_free (n : Nat) : (embeddedPat.re n).free = true := rfl

theorem emb_full (n : Nat) (w : Str) (ns : List Str) (hns : ∀ v ∈ w :: ns, DistWord v) : Full (embeddedPat.re n) (join ['<'] (w :: ns)) := by
  obtain ⟨e, he⟩ := emb_run n w ns hns [] (by simp) [] [] some (fun _ => rfl)
  rw [enc_nil, List.append_nil] at he
  exact full_run (emb_free n) he

theorem dist_full {w : Str} (hw : DistWord w) : Full (Kind.re 1 .dist) w := by
  obtain ⟨e, he⟩ := dist_run 1 hw [] (by simp) [] [] some (fun _ => rfl)
  rw [List.append_nil] at he
  exact full_run rfl he

theorem dist_chars {w : Str} (hw : DistWord w) : NoSpace w ∧ w ≠ [] ∧ '<' ∉ w := by
  obtain ⟨c, v, hc, hne, hall, rfl⟩ := hw
  have hv : ∀ x ∈ v, x ≠ '<' ∧ Py.isSpace x = false := by
    intro x hx
    have := hall x hx
    exact ⟨by rintro rfl; exact absurd this (by decide), digit_noSp x this⟩
  refine ⟨?_, by simp, ?_⟩
  · intro x hx
    rcases List.mem_cons.1 hx with rfl | hx
    · rcases hc with rfl | rfl <;> decide
    · exact (hv x hx).2
  · intro hx
    rcases List.mem_cons.1 hx with h | hx
    · subst h; rcases hc with hc | hc <;> exact absurd hc (by decide)
    · exact (hv _ hx).1 rfl

/-- What the embedded distributions are read as. -/
theorem emb_parse (w : Str) (ns : List Str) (hns : ∀ v ∈ w :: ns, DistWord v) :
    embeddedParse (join ['<'] (w :: ns)) = match allOk ((w :: ns).map distParse) with
      | .error e => .error e
      | .ok vs => .ok (.obj ⟨"Embedded", .embedded, [], ["distributions"]⟩ [.tuple (vs.map (fun v => .sc (.dist v)))]) := by
  have hm : (reMatch (anchored (embeddedPat.re 1)) (join ['<'] (w :: ns))).isSome = true := (full_iff _ (emb_free 1) _).2 (emb_full 1 w ns hns)
  unfold embeddedParse
  obtain ⟨m, hm⟩ := Option.isSome_iff_exists.1 hm
  rw [hm, splitC_join '<' (w :: ns) (by simp) (fun v hv => (dist_chars (hns v hv)).2.2)]
  have hj : join [' '] (w :: ns) = w ++ enc ns := join_enc w ns
  obtain ⟨f1, f2, _⟩ := (Kind.dist).facts (Kind.tok_word (k := .dist) rfl) 1
  have hfi := finditer_words ((Ty.base .dist).re 1) (Kind.tok_ok (k := .dist) rfl) f1 (noSp_mt f2) w ns (fun v hv => ⟨(dist_chars (hns v hv)).1, (dist_chars (hns v hv)).2.1⟩) (fun v hv => dist_full (hns v hv))
  unfold tupleParse
  rw [hj, hfi]
  have : ∀ l : List Str, l.mapM (Ty.base .dist).parse = (allOk (l.map distParse)).map (fun vs => vs.map (fun v => Val.sc (.dist v))) := by
    intro l
    induction l with
    | nil => rfl
    | cons x l ih =>
      rw [mapM_cons_res, List.map_cons, allOk_cons, ih]
      have hp : (Ty.base Kind.dist).parse x = (distParse x).map (fun v => Val.sc (.dist v)) := rfl
      rw [hp]
      cases distParse x with
      | error e => rfl
      | ok v => cases allOk (l.map distParse) <;> rfl
  rw [this]
  cases allOk ((w :: ns).map distParse) <;> rfl

theorem time_re (n : Nat) : Tab.sdef_Tme_1.pat.re n = .seq (litRe c!"tme") (.seq (.grp n (.seq (litRe c!" ") (embeddedPat.re (n + 1)))) .eps) := rfl

theorem time_free : (Tab.sdef_Tme_1.pat.re 1).free = true := by
  rw [time_re]
  simp only [Re.free, emb_free, (litRe_any c!"tme" 0 0).1, (litRe_any c!" " 0 0).1, Bool.and_self]

theorem time_mem : Tab.sdef_Tme_1 ∈ rowSdef.cs := by simp [rowSdef]

/-- What the whole option is read as. -/
theorem time_build {hd : Str} (hh : lower hd = c!"tme") (ns : List Str) (hne : ns ≠ []) (hns : ∀ v ∈ ns, DistWord v) :
    ∃ m, reMatch Tab.sdef_Tme_1.re (hd ++ enc [join ['<'] ns]) = some m ∧ Tab.sdef_Tme_1.build m = readTime ns := by
  obtain ⟨w, ns, rfl⟩ := List.exists_cons_of_ne_nil hne
  have hh : lower hd = lower c!"tme" := hh
  obtain ⟨e0, he0⟩ := emb_full 2 w ns hns
  have hj : join ['<'] (w :: ns) ≠ [] := by rw [join_lt]; simp [(dist_chars (hns w (by simp))).2.1]
  have hjs : NoSpace (join ['<'] (w :: ns)) := by
    rw [join_lt]
    intro x hx
    rcases List.mem_append.1 hx with hx | hx
    · exact (dist_chars (hns w (by simp))).1 x hx
    · obtain ⟨v, hv, hx⟩ := List.mem_flatMap.1 hx
      rcases List.mem_cons.1 hx with rfl | hx
      · decide
      · exact (dist_chars (hns v (by simp [hv]))).1 x hx
  have hparse := emb_parse w ns hns
  generalize join ['<'] (w :: ns) = W at *
  have full : Full (Tab.sdef_Tme_1.pat.re 1) (hd ++ enc [W]) := by
    rw [time_re, enc_cons, enc_nil, List.append_nil]
    refine ⟨_, mt_seq.2 ⟨hd, ' ' :: W, [], _, mt_lit.2 ⟨hh, rfl⟩, mt_seq.2 ⟨_, [], _, [], mt_grp.2 ⟨_, mt_seq.2 ⟨[' '], _, [], e0, mt_lit.2 ⟨rfl, rfl⟩, he0, rfl, rfl⟩, rfl⟩, mt_eps.2 ⟨rfl, rfl⟩, by simp, rfl⟩, rfl, rfl⟩⟩
  obtain ⟨m, hm⟩ := Option.isSome_iff_exists.1 ((full_iff _ time_free _).2 full)
  refine ⟨m, hm, ?_⟩
  obtain ⟨e, he, rfl⟩ := full_match time_free hm
  rw [time_re] at he
  obtain ⟨u, v, x, y, m1, m2, huv, rfl⟩ := mt_seq.1 he
  obtain ⟨hu, rfl⟩ := mt_lit.1 m1
  obtain ⟨v1, v2, x1, x2, m3, m4, hv, rfl⟩ := mt_seq.1 m2
  obtain ⟨rfl, rfl⟩ := mt_eps.1 m4
  obtain ⟨x3, m5, rfl⟩ := mt_grp.1 m3
  have hlen : u.length = hd.length := lower_length (hu.trans hh.symm)
  obtain ⟨rfl, hv1⟩ := List.append_inj huv hlen.symm
  rw [List.append_nil] at hv
  subst hv
  subst hv1
  have hst : strip (enc [W]) = W := by
    have := strip_enc W [] (fun x hx => by rw [List.mem_singleton.1 hx]; exact ⟨hjs, hj⟩)
    rw [this, enc_nil, List.append_nil]
  have hcap : cap ((0, hd ++ enc [W]) :: ([] ++ (1, enc [W]) :: x3 ++ [])) (0 + 1) = some (enc [W]) := rfl
  obtain ⟨a, chk, hat⟩ : ∃ a chk, Tab.sdef_Tme_1.attrs = [⟨a, .other "tme_1.Embedded" embeddedPat.re embeddedPat.ng embeddedParse, false, chk⟩] := ⟨_, _, rfl⟩
  unfold Cls.build
  rw [hat]
  simp only [attrVals, attrVal]
  rw [if_neg (by decide), hcap, enc_cons] at *
  simp only [hst, Attr.parse, Bool.false_eq_true, if_false]
  have hp : (Ty.other "tme_1.Embedded" embeddedPat.re embeddedPat.ng embeddedParse).parse = embeddedParse := rfl
  rw [hp, hparse]
  unfold readTime
  cases allOk ((w :: ns).map distParse) <;> rfl

theorem numRe_d (c : Char) (s : Str) (hc : c = 'd' ∨ c = 'D') : reMatch numRe (c :: s) = none := by
  rcases hc with rfl | rfl
  · rfl
  · rfl

/-- The class begins with an entry that is a number. -/
def numbered (x : Cls) : Bool :=
  match x.shape with
  | .flat h (⟨.ty (.base k), mode⟩ :: _) => h.ok && (mode == .req || mode == .many) && (k == .int || k == .real)
  | _ => false

theorem time_off : (((sortLen rowSdef.cs).takeWhile (·.info.name != Tab.sdef_Tme_1.info.name)).all (fun x => keyApart ⟨.no, c!"tme", .no, .no⟩ x || numbered x) &&
    (rowSdef.cs.takeWhile (·.info.name != Tab.sdef_Tme_1.info.name)).all (fun x => keyApart ⟨.no, c!"tme", .no, .no⟩ x || numbered x)) = true := by decide +kernel

theorem numbered_begins {x : Cls} (hx : x ∈ rowSdef.cs) (ho : (keyApart ⟨.no, c!"tme", .no, .no⟩ x || numbered x) = true) {hd : Str} (hh : lower hd = c!"tme") {w : Str}
    (hf : w.head? = some 'd' ∨ w.head? = some 'D') (ws : List Str) (hw : Words (hd :: w :: ws)) : x.begins (hd ++ enc (w :: ws)) = false := by
  have hg := rowSdef_good x hx
  obtain ⟨c, t, rfl⟩ : ∃ c t, w = c :: t := List.exists_cons_of_ne_nil (by rintro rfl; rcases hf with hf | hf <;> cases hf)
  have hc : c = 'd' ∨ c = 'D' := by simpa using hf
  have hhd : (readHead ⟨.no, c!"tme", .no, .no⟩ hd).isSome = true := by rw [readHead_lit (kw := c!"tme") hh]; rfl
  rw [Bool.or_eq_true] at ho
  rcases ho with ho | ho
  · exact apart_begins hg ho hhd _
  · refine misses_begins hg ?_ hhd hw
    unfold Cls.misses
    unfold numbered at ho
    rw [Bool.or_eq_true, Bool.or_eq_true]
    refine .inl (.inr ?_)
    split at ho
    · rename_i h' k mode fs hsh
      rw [hsh]
      simp only [Bool.and_eq_true, Bool.or_eq_true, beq_iff_eq] at ho ⊢
      obtain ⟨⟨ho1, ho2⟩, ho3⟩ := ho
      refine ⟨⟨⟨ho1, ?_⟩, ho2⟩, .inr ?_⟩
      · rcases ho3 with rfl | rfl <;> rfl
      · simp only [List.head?_cons, Bool.not_eq_true', unitPre]
        rcases ho3 with rfl | rfl <;> exact congrArg Option.isSome (numRe_d c t hc)
    · cases ho

/-- The time is found and read. -/
theorem found_time {hd : Str} (hh : lower hd = c!"tme") (ns : List Str) (hne : ns ≠ []) (hns : ∀ v ∈ ns, DistWord v) (rest : List Str)
    (hr : ∀ w, rest.head? = some w → w.head? ≠ some '<') (hs : ∀ w ∈ hd :: join ['<'] ns :: rest, Stable w) :
    Found rowSdef.cs (hd, [join ['<'] ns]) rest false (readTime ns) := by
  obtain ⟨n1, n2⟩ := optRows_names rowSdef (by simp [optRows])
  obtain ⟨m, h1, h3⟩ := time_build hh ns hne hns
  have hw := stable_words hs
  have hoff := time_off
  rw [Bool.and_eq_true, List.all_eq_true, List.all_eq_true] at hoff
  have hfirst : (join ['<'] ns).head? = some 'd' ∨ (join ['<'] ns).head? = some 'D' := by
    obtain ⟨w, ns, rfl⟩ := List.exists_cons_of_ne_nil hne
    obtain ⟨c, v, hc, -, -, hv⟩ := hns w (by simp)
    rw [join_lt, hv]
    simpa using hc
  refine found_by rowSdef_good n1 n2 time_mem hd [join ['<'] ns] rest (fun w h => hs w (by
    simp only [List.mem_cons, List.not_mem_nil, or_false] at h ⊢
    rcases h with h | h <;> simp [h])) (fun n prev => ?_) h1 h3
    (fun x hx => numbered_begins ((mem_sortLen _).1 (mem_takeWhile hx)) (hoff.1 x hx) hh hfirst _ (by simpa using hw))
    (fun x hx => numbered_begins (mem_takeWhile hx) (hoff.2 x hx) hh hfirst _ (fun w h => hw w (by
      simp only [List.mem_cons, List.not_mem_nil, or_false] at h ⊢
      rcases h with h | h <;> simp [h])))
  obtain ⟨w, ns, rfl⟩ := List.exists_cons_of_ne_nil hne
  have hh' : lower hd = lower c!"tme" := hh
  rw [time_re, run_seq, run_lit_ok c!"tme" hd hh', run_seq, run_grp, List.cons_append, enc_cons, blank_run, List.nil_append]
  have hlen : hd.length = 3 := by have := congrArg List.length hh; simpa [lower] using this
  have hk : ∀ e, findK (hd ++ ' ' :: (join ['<'] (w :: ns) ++ enc rest)).length ⟨(join ['<'] (w :: ns)).reverse ++ (' ' :: (hd.reverse ++ prev)), enc rest, e⟩ =
      some ⟨(hd ++ enc [join ['<'] (w :: ns)]).reverse ++ prev, enc rest, e⟩ := by
    intro e
    rw [findK_ok]
    · simp [enc_cons]
    · simp only [List.length_append, List.length_cons]; omega
  obtain ⟨e, he⟩ := emb_run (n + 1) w ns hns rest (fun w h => ⟨(hw w (by
      cases rest with
      | nil => cases h
      | cons a l => simp at h; simp [h])).2, hr w h⟩) (' ' :: (hd.reverse ++ prev)) []
    (fun st' => run .eps { st' with caps := (n, (' ' :: (join ['<'] (w :: ns) ++ enc rest)).take
      ((' ' :: (join ['<'] (w :: ns) ++ enc rest)).length - st'.rest.length)) :: st'.caps } (findK (hd ++ ' ' :: (join ['<'] (w :: ns) ++ enc rest)).length)) (fun e => by
      show (findK _ _).isSome = true
      rw [hk]
      rfl)
  exact ⟨_, he.trans (hk _)⟩

end Inp
