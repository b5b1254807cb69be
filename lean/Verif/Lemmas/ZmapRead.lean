import Verif.Lemmas.Zmap
import Verif.Lemmas.AscRead

/-! `readZmapGrid` on the output of `writeZmapGrid`. -/

namespace PyKrige
open Spec

/-- `str` prints `q` as one word that reads as `q`. -/
structure Spec.Prints (str : ℚ → Text) (q : ℚ) : Prop where
  word : Word (str q)
  comma : ',' ∉ str q
  value : parseFloat (str q) = some (.num q)

/-- The same for any float. -/
def Spec.PrintsFlt (str : ℚ → Text) : Flt → Prop
  | .num q => Prints str q
  | _ => True

/-! ### Splitting -/

theorem splitOn_none {c : Char} {a : Text} (h : c ∉ a) : splitOn c a = [a] := by
  induction a with
  | nil => rfl
  | cons d a ih =>
    rw [splitOn, if_neg (by rintro rfl; exact h (by simp)), ih fun h' => h (by simp [h'])]

theorem splitOn_at {c : Char} {a : Text} (h : c ∉ a) (b : Text) : splitOn c (a ++ c :: b) = a :: splitOn c b := by
  induction a with
  | nil => rw [List.nil_append, splitOn, if_pos rfl]
  | cons d a ih =>
    rw [List.cons_append, splitOn, if_neg (by rintro rfl; exact h (by simp)), ih fun h' => h (by simp [h'])]

theorem splitOn_head (c : Char) (t : Text) : ∃ r, splitOn c t = t.takeWhile (· ≠ c) :: r := by
  induction t with
  | nil => exact ⟨[], rfl⟩
  | cons d t ih =>
    obtain ⟨r, hr⟩ := ih
    rw [splitOn]
    by_cases h : d = c
    · rw [if_pos h]
      exact ⟨_, by rw [List.takeWhile_cons_of_neg (by simp [h])]⟩
    · rw [if_neg h, hr]
      exact ⟨r, by rw [List.takeWhile_cons_of_pos (by simp [h])]⟩

/-- A comment line in the header. -/
theorem zmapLoop_comment {env : ZEnv} {s : ZState} (hs : s.header = 0) {pre rest : Text} (hp : ':' ∉ pre)
    (hh : pre.head? = some '!') (hc : contains "COORDINATE REFERENCE SYSTEM".toList pre = false) (ls : List Text) :
    zmapLoop env s ((pre ++ ':' :: rest) :: ls) = zmapLoop env s ls := by
  have h0 : (pre ++ ':' :: rest).head? = some '!' := by
    cases pre with
    | nil => cases hh
    | cons c pre => exact hh
  have hzw : zmapWords s (pre ++ ':' :: rest) = .ok (s, pre :: splitOn ':' rest) := by
    unfold zmapWords
    rw [if_pos h0, splitOn_at hp]
    have hn : ¬ contains "COORDINATE REFERENCE SYSTEM".toList ((pre :: splitOn ':' rest).headD []) = true := by
      change ¬ contains "COORDINATE REFERENCE SYSTEM".toList pre = true
      rw [hc]; decide
    exact if_neg hn
  rw [zmapLoop, hzw, py_ok_bind]
  dsimp only
  rw [if_neg (by rw [hs]; intro h; exact absurd h.1 (by decide)), py_ok_bind, if_neg (by rw [hh]; decide)]
  have hz : zmapHeaderLine env s (pre :: splitOn ':' rest) = .ok s := by
    unfold zmapHeaderLine
    rw [if_neg (by rw [hs]; norm_num)]
  rw [hz, py_ok_bind]

theorem zmapLoop_bang {env : ZEnv} {s : ZState} (hs : s.header = 0) (ls : List Text) :
    zmapLoop env s ("!".toList :: ls) = zmapLoop env s ls := by
  rw [zmapLoop]
  have h : zmapWords s "!".toList = .ok (s, ["!".toList]) := rfl
  rw [h, py_ok_bind]
  dsimp only
  rw [if_neg (by rw [hs]; intro h; exact absurd h.1 (by decide)), py_ok_bind, if_neg (by decide)]
  have hz : zmapHeaderLine env s ["!".toList] = .ok s := by
    unfold zmapHeaderLine
    rw [if_neg (by rw [hs]; norm_num)]
  rw [hz, py_ok_bind]

/-- The line with the coordinate system. -/
theorem zmapLoop_crs {env : ZEnv} {s : ZState} (hs : s.header = 0) (cs : Text) (ls : List Text) :
    zmapLoop env s (("!     COORDINATE REFERENCE SYSTEM".toList ++ ':' :: ' ' :: cs) :: ls) =
      zmapLoop env { s with coordSys := ' ' :: cs.takeWhile (· ≠ ':') } ls := by
  obtain ⟨r, hr⟩ := splitOn_head ':' (' ' :: cs)
  rw [List.takeWhile_cons_of_pos (by decide)] at hr
  obtain ⟨pre, hpre⟩ : ∃ p, "!     COORDINATE REFERENCE SYSTEM".toList = p := ⟨_, rfl⟩
  have hh : pre.head? = some '!' := by rw [← hpre]; decide
  have hp : ':' ∉ pre := by rw [← hpre]; decide
  have hc : contains "COORDINATE REFERENCE SYSTEM".toList pre = true := by rw [← hpre]; decide
  rw [hpre]
  have h0 : (pre ++ ':' :: ' ' :: cs).head? = some '!' := by
    cases pre with
    | nil => cases hh
    | cons c pre => exact hh
  have hzw : zmapWords s (pre ++ ':' :: ' ' :: cs) =
      .ok ({ s with coordSys := ' ' :: cs.takeWhile (· ≠ ':') }, pre :: (' ' :: cs.takeWhile (· ≠ ':')) :: r) := by
    unfold zmapWords
    rw [if_pos h0, splitOn_at hp, hr]
    exact if_pos hc
  rw [zmapLoop, hzw, py_ok_bind]
  dsimp only
  rw [if_neg (by rw [hs]; intro h; exact absurd h.1 (by decide)), py_ok_bind, if_neg (by rw [hh]; decide)]
  unfold zmapHeaderLine
  rw [if_neg (by dsimp only; rw [hs]; norm_num), py_ok_bind]

/-- A line of words in the header. -/
theorem zmapLoop_header {env : ZEnv} {s s' : ZState} {line w : Text} {ws : List Text} (hn : line.head? ≠ some '!')
    (hw : (pySplit line).map (fun w => w.filter (· ≠ ',')) = w :: ws) (hs : s.header ≠ -1) (hat : w.head? ≠ some '@')
    (h : zmapHeaderLine env s (w :: ws) = .ok s') (ls : List Text) :
    zmapLoop env s (line :: ls) = zmapLoop env s' ls := by
  rw [zmapLoop]
  unfold zmapWords
  rw [if_neg hn, hw, py_ok_bind]
  dsimp only
  rw [if_neg (fun h => hs h.1), py_ok_bind, if_neg hat, h, py_ok_bind]

/-- A line that starts with `@`. -/
theorem zmapLoop_at {env : ZEnv} {s s' : ZState} {line w : Text} {ws : List Text} (hn : line.head? ≠ some '!')
    (hw : (pySplit line).map (fun w => w.filter (· ≠ ',')) = w :: ws) (hs : s.header ≠ -1) (hat : w.head? = some '@')
    (h : zmapHeaderLine env { s with header := if s.header = 0 then 1 else -1 } (w :: ws) = .ok s') (ls : List Text) :
    zmapLoop env s (line :: ls) = zmapLoop env s' ls := by
  rw [zmapLoop]
  unfold zmapWords
  rw [if_neg hn, hw, py_ok_bind]
  dsimp only
  rw [if_neg (fun h => hs h.1), py_ok_bind, if_pos hat, h, py_ok_bind]

/-- A word followed by a comma and blanks. -/
theorem pySplit_comma {w : Text} (hw : Word w) {b : Char} (hb : b.isWhitespace = true) (t : Text) :
    pySplit (w ++ (',' :: b :: t)) = (w ++ [',']) :: pySplit t := by
  have e : w ++ (',' :: b :: t) = (w ++ [',']) ++ ([b] ++ t) := by simp
  have hw' : Word (w ++ [',']) := ⟨by simp, fun c hc => by
    rcases List.mem_append.1 hc with hc | hc
    · exact hw.clean c hc
    · rw [List.mem_singleton.1 hc]; rfl⟩
  rw [e, pySplit_word hw' (by intro c hc; simp at hc; exact hc ▸ hb), pySplit_blank (b := [b])]
  intro c hc
  rw [List.mem_singleton.1 hc]
  exact hb

theorem filter_trailing {w : Text} (h : ',' ∉ w) : (w ++ [',']).filter (· ≠ ',') = w := by
  rw [List.filter_append, filter_comma h]
  simp

theorem comma_not_natText (n : ℕ) : ',' ∉ natText n := fun h => by
  have := (natText_digits n).2 _ h
  cases this

theorem pySplit_space {b : Char} (hb : b.isWhitespace = true) (t : Text) : pySplit (b :: t) = pySplit t := by
  rw [pySplit, if_pos hb]

/-! ### Header -/

/-- The lines of the header of a ZMAP file. -/
def zmapLines (env : ZEnv) (nx ny : ℕ) (xll yll dx hix hiy : ℚ) (noData : Flt) (coordSys : Text) : List Text :=
  ["!".toList,
   "!     ZIMS FILE NAME ".toList ++ ':' :: ("  ".toList ++ env.basename),
   "!     FORMATTED FILE CREATION DATE".toList ++ ':' :: (" ".toList ++ env.date),
   "!     FORMATTED FILE CREATION TIME".toList ++ ':' :: (" ".toList ++ env.time),
   "!     COORDINATE REFERENCE SYSTEM".toList ++ ':' :: ' ' :: coordSys,
   "!".toList,
   "@Grid HEADER, GRID, 5".toList,
   ' ' :: ("15".toList ++ (',' :: ' ' :: (strFlt env noData ++ (',' :: ' ' :: " , 1 , 1".toList)))),
   ' ' :: ' ' :: ' ' :: (natText ny ++ (',' :: ' ' :: ' ' :: (natText nx ++ (',' :: ' ' :: ' ' :: (env.str xll ++
     (',' :: ' ' :: ' ' :: (env.str hix ++ (',' :: ' ' :: ' ' :: (env.str yll ++ (',' :: ' ' :: ' ' :: env.str hiy)))))))))),
   ' ' :: ' ' :: ' ' :: (env.str dx ++ (',' :: ' ' :: " 0.0,  0.0    ".toList)),
   "@".toList]

theorem natText_five : natText 5 = "5".toList := by rw [natText]; rfl
theorem natText_fifteen : natText 15 = "15".toList := by
  rw [natText, if_neg (by norm_num), natText, if_pos (by norm_num)]; rfl

theorem zmapHeader_eq (env : ZEnv) (nx ny : ℕ) (xll yll dx hix hiy : ℚ) (noData : Flt) (cs body : Text) :
    zmapHeader env nx ny xll yll dx hix hiy noData cs ++ body =
      fileOf (zmapLines env nx ny xll yll dx hix hiy noData cs) body := by
  unfold zmapHeader fileOf zmapLines
  have e1 : "!\n".toList = "!".toList ++ ['\n'] := by decide
  have e2 : "\n".toList = ['\n'] := by decide
  have e3 : "!     ZIMS FILE NAME :  ".toList = "!     ZIMS FILE NAME ".toList ++ ':' :: "  ".toList := by decide
  have e4 : "!     FORMATTED FILE CREATION DATE: ".toList = "!     FORMATTED FILE CREATION DATE".toList ++ ':' :: " ".toList := by
    decide
  have e5 : "!     FORMATTED FILE CREATION TIME: ".toList = "!     FORMATTED FILE CREATION TIME".toList ++ ':' :: " ".toList := by
    decide
  have e6 : "!     COORDINATE REFERENCE SYSTEM: ".toList = "!     COORDINATE REFERENCE SYSTEM".toList ++ [':', ' '] := by
    decide
  have e7 : "@Grid HEADER, GRID, 5".toList = "@Grid HEADER, GRID, ".toList ++ "5".toList := by decide
  have e8 : ", ".toList = [',', ' '] := by decide
  have e9 : ",  , 1 , 1".toList = ',' :: ' ' :: " , 1 , 1".toList := by decide
  have e10 : "   ".toList = [' ', ' ', ' '] := by decide
  have e11 : ",  ".toList = [',', ' ', ' '] := by decide
  have e12 : ",  0.0,  0.0    ".toList = ',' :: ' ' :: " 0.0,  0.0    ".toList := by decide
  have e13 : "@\n".toList = "@".toList ++ ['\n'] := by decide
  have e14 : " ".toList = [' '] := by decide
  rw [natText_five, natText_fifteen, e1, e2, e3, e4, e5, e6, e7, e8, e9, e10, e11, e12, e13, e14]
  simp only [List.flatMap_cons, List.flatMap_nil, List.append_assoc, List.cons_append, List.nil_append, List.append_nil]

theorem strFlt_spec {env : ZEnv} {v : Flt} (h : PrintsFlt env.str v) :
    Word (strFlt env v) ∧ ',' ∉ strFlt env v ∧ parseFloat (strFlt env v) = some v := by
  cases v with
  | num q => exact ⟨h.word, h.comma, h.value⟩
  | inf b => cases b <;> exact ⟨wordOf (by decide) (by decide), by simp only [strFlt]; decide, rfl⟩
  | nan => exact ⟨wordOf (by decide) (by decide), by simp only [strFlt]; decide, rfl⟩

/-- The state after the header. -/
def zmapStart (env : ZEnv) (nx ny : ℕ) (xll yll hix hiy : ℚ) (noData : Flt) (cs : Text) : ZState where
  header := -1
  iValue := 0
  data := (List.range (ny * nx)).map env.fresh
  noData := noData
  nx := nx
  ny := ny
  originx := xll
  originy := yll
  maxx := hix
  maxy := hiy
  coordSys := ' ' :: cs.takeWhile (· ≠ ':')

section
variable {env : ZEnv} {nx ny : ℕ} {xll yll dx hix hiy : ℚ} {noData : Flt} {cs : Text}

theorem zmapLines_newline (h1 : '\n' ∉ env.basename) (h2 : '\n' ∉ env.date) (h3 : '\n' ∉ env.time) (h4 : '\n' ∉ cs)
    (p1 : Prints env.str xll) (p2 : Prints env.str hix) (p3 : Prints env.str yll) (p4 : Prints env.str hiy)
    (p5 : Prints env.str dx) (p6 : PrintsFlt env.str noData) :
    ∀ l ∈ zmapLines env nx ny xll yll dx hix hiy noData cs, '\n' ∉ l := by
  have n1 := newline_not_word p1.word
  have n2 := newline_not_word p2.word
  have n3 := newline_not_word p3.word
  have n4 := newline_not_word p4.word
  have n5 := newline_not_word p5.word
  have n6 := newline_not_word (strFlt_spec p6).1
  have n7 := newline_not_word (natText_word nx)
  have n8 := newline_not_word (natText_word ny)
  intro l hl
  simp only [zmapLines, List.mem_cons, List.not_mem_nil, or_false] at hl
  rcases hl with rfl | rfl | rfl | rfl | rfl | rfl | rfl | rfl | rfl | rfl | rfl <;> simp [*]

theorem zmapLoop_lines (p1 : Prints env.str xll) (p2 : Prints env.str hix) (p3 : Prints env.str yll)
    (p4 : Prints env.str hiy) (p5 : Prints env.str dx) (p6 : PrintsFlt env.str noData) (ls : List Text) :
    zmapLoop env { data := [env.fresh 0] } (zmapLines env nx ny xll yll dx hix hiy noData cs ++ ls) =
      zmapLoop env (zmapStart env nx ny xll yll hix hiy noData cs) ls := by
  obtain ⟨w6, c6, v6⟩ := strFlt_spec p6
  have b : (' ' : Char).isWhitespace = true := rfl
  unfold zmapLines
  simp only [List.cons_append, List.nil_append]
  rw [zmapLoop_bang rfl, zmapLoop_comment rfl (by decide) (by decide) (by decide),
    zmapLoop_comment rfl (by decide) (by decide) (by decide), zmapLoop_comment rfl (by decide) (by decide) (by decide),
    zmapLoop_crs rfl, zmapLoop_bang rfl]
  rw [zmapLoop_at (s' := { data := [env.fresh 0], header := 2, coordSys := ' ' :: cs.takeWhile (· ≠ ':') })
    (w := "@Grid".toList) (ws := ["HEADER".toList, "GRID".toList, "5".toList]) (by decide) (by decide +kernel)
    (by dsimp only; decide) (by decide) rfl]
  rw [zmapLoop_header (s' := { data := [env.fresh 0], header := 3, coordSys := ' ' :: cs.takeWhile (· ≠ ':'), noData := noData })
    (w := "15".toList) (ws := [strFlt env noData, [], "1".toList, [], "1".toList]) (by simp) ?_ (by dsimp only; decide) (by decide) ?_]
  rotate_left
  · rw [pySplit_space b, pySplit_comma (wordOf (by decide) (by decide)) b, pySplit_comma w6 b]
    have : pySplit " , 1 , 1".toList = [",".toList, "1".toList, ",".toList, "1".toList] := by decide +kernel
    rw [this]
    simp only [List.map_cons, List.map_nil, filter_trailing c6]
    rfl
  · unfold zmapHeaderLine
    rw [if_pos (by dsimp only; decide), if_pos (by dsimp only)]
    have : pyGet ["15".toList, strFlt env noData, [], "1".toList, [], "1".toList] 1 = .ok (strFlt env noData) := rfl
    rw [this, py_ok_bind]
    unfold pyFloat
    rw [v6]
    rfl
  have hfresh : freshArray env (((ny : ℕ) : ℤ) * ((nx : ℕ) : ℤ)) = .ok ((List.range (ny * nx)).map env.fresh) := by
    unfold freshArray
    have e : ((ny : ℕ) : ℤ) * ((nx : ℕ) : ℤ) = ((ny * nx : ℕ) : ℤ) := by push_cast; rfl
    rw [e, if_neg (not_lt.2 (Int.natCast_nonneg _)), Int.toNat_natCast]
  rw [zmapLoop_header (s' := { zmapStart env nx ny xll yll hix hiy noData cs with header := 4 })
    (w := natText ny) (ws := [natText nx, env.str xll, env.str hix, env.str yll, env.str hiy]) (by simp) ?_ (by dsimp only; decide)
    ?_ ?_]
  rotate_left
  · rw [pySplit_space b, pySplit_space b, pySplit_space b, pySplit_comma (natText_word _) b, pySplit_space b,
      pySplit_comma (natText_word _) b, pySplit_space b, pySplit_comma p1.word b, pySplit_space b, pySplit_comma p2.word b,
      pySplit_space b, pySplit_comma p3.word b, pySplit_space b, pySplit_single p4.word]
    simp only [List.map_cons, List.map_nil, filter_trailing (comma_not_natText _), filter_trailing p1.comma,
      filter_trailing p2.comma, filter_trailing p3.comma, filter_comma p4.comma]
  · have h := (natText_digits ny)
    intro e
    cases hn : natText ny with
    | nil => exact h.1 hn
    | cons c r =>
      rw [hn] at e
      cases e
      have := h.2 '@' (by rw [hn]; simp)
      cases this
  · unfold zmapHeaderLine
    rw [if_pos (by dsimp only; decide), if_neg (by dsimp only; decide), if_pos (by dsimp only)]
    have g : ∀ a b c d e f : Text, pyGet [a, b, c, d, e, f] 0 = .ok a ∧ pyGet [a, b, c, d, e, f] 1 = .ok b ∧
        pyGet [a, b, c, d, e, f] 2 = .ok c ∧ pyGet [a, b, c, d, e, f] 3 = .ok d ∧ pyGet [a, b, c, d, e, f] 4 = .ok e ∧
        pyGet [a, b, c, d, e, f] 5 = .ok f := fun _ _ _ _ _ _ => ⟨rfl, rfl, rfl, rfl, rfl, rfl⟩
    obtain ⟨g0, g1, g2, g3, g4, g5⟩ := g (natText ny) (natText nx) (env.str xll) (env.str hix) (env.str yll) (env.str hiy)
    have pc : ∀ {q}, Prints env.str q → pyCoord (env.str q) = .ok q := fun h => by unfold pyCoord; rw [h.value]
    simp only [g0, g1, g2, g3, g4, g5, py_ok_bind, pyInt_nat, pc p1, pc p2, pc p3, pc p4, hfresh, py_pure]
    rfl
  rw [zmapLoop_header (s' := { zmapStart env nx ny xll yll hix hiy noData cs with header := 5 })
    (w := env.str dx) (ws := ["0.0".toList, "0.0".toList]) (by simp) ?_ (by dsimp only; decide) (parse_plain p5.value).2 rfl]
  rotate_left
  · rw [pySplit_space b, pySplit_space b, pySplit_space b, pySplit_comma p5.word b]
    have : pySplit " 0.0,  0.0    ".toList = ["0.0,".toList, "0.0".toList] := by decide +kernel
    rw [this]
    simp only [List.map_cons, List.map_nil, filter_trailing p5.comma]
    rfl
  rw [zmapLoop_at (s' := zmapStart env nx ny xll yll hix hiy noData cs) (w := "@".toList) (ws := []) (by decide)
    (by decide +kernel) (by dsimp only; decide) (by decide) rfl]

end

/-! ### Body -/

theorem comma_not_fltFixed (k : ℕ) (v : Flt) : ',' ∉ fltFixed k v := by
  have hd : ∀ {c : Char}, c.isDigit = true → c ≠ ',' := by rintro c h rfl; cases h
  cases v with
  | num q =>
    change ',' ∉ fmtFixed k q
    unfold fmtFixed
    intro hc
    simp only [List.mem_append, List.mem_cons] at hc
    rcases hc with (hc | hc) | hc | hc
    · split at hc
      · cases List.mem_singleton.1 hc
      · cases hc
    · exact hd ((natText_digits _).2 _ hc) rfl
    · cases hc
    · exact hd (fixedDigits_digits _ _ _ hc) rfl
  | inf b => cases b <;> (simp only [fltFixed]; decide)
  | nan => simp only [fltFixed]; decide

theorem comma_not_fltSci (v : Flt) : ',' ∉ fltSci v := by
  have hd : ∀ {c : Char}, c.isDigit = true → c ≠ ',' := by rintro c h rfl; cases h
  cases v with
  | num q =>
    change ',' ∉ fmtSci q
    unfold fmtSci expText
    dsimp only
    generalize (if q = 0 then ((0, 0) : ℤ × ℕ) else sciParts q) = p
    intro hc
    simp only [List.mem_append, List.mem_cons] at hc
    rcases hc with ((hc | hc) | hc | hc) | hc | hc | hc
    · split at hc
      · cases List.mem_singleton.1 hc
      · cases hc
    · exact hd ((natText_digits _).2 _ hc) rfl
    · cases hc
    · exact hd (fixedDigits_digits _ _ _ hc) rfl
    · cases hc
    · split at hc <;> cases hc
    · split at hc
      · rcases List.mem_cons.1 hc with hc | hc
        · cases hc
        · exact hd ((natText_digits _).2 _ hc) rfl
      · exact hd ((natText_digits _).2 _ hc) rfl
  | inf b => cases b <;> (simp only [fltSci]; decide)
  | nan => simp only [fltSci]; decide

theorem zmapWord_plain (noData v : Flt) : Plain (zmapWord noData v) := by
  refine ⟨?_, parse_plain (parse_zmapWord noData v)⟩
  unfold zmapWord
  split
  · exact comma_not_fltSci _
  · split
    · exact comma_not_fltSci _
    · exact comma_not_fltFixed _ _

/-- The fields of the body in the order in which they are written. -/
def zmapFields {nr nc : ℕ} (z : Fin nr → Fin nc → Flt) : List (Flt × Bool) :=
  (List.finRange nc).flatMap fun n => (List.finRange nr).map fun k =>
    (z k.rev n, decide ((k.val + 1) % 5 = 0 ∨ k.rev.val = 0))

theorem zmapBody_eq {nr nc : ℕ} (noData : Flt) (z : Fin nr → Fin nc → Flt) :
    zmapBody noData z = fieldsText noData (zmapFields z) := by
  unfold zmapBody zmapColumn fieldsText zmapFields
  rw [List.flatMap_assoc]
  congr 1
  funext n
  rw [List.flatMap_map]
  congr 1
  funext k
  simp

theorem getElem?_flatMap_const {α : Type} {nc L : ℕ} (f : Fin nc → List α) (h : ∀ n, (f n).length = L) (n : Fin nc) {k : ℕ}
    (hk : k < L) : ((List.finRange nc).flatMap f)[n.val * L + k]? = (f n)[k]? := by
  induction nc with
  | zero => exact n.elim0
  | succ m ih =>
    rw [List.finRange_succ, List.flatMap_cons, List.flatMap_map]
    refine Fin.cases ?_ (fun i => ?_) n
    · rw [Fin.val_zero, Nat.zero_mul, Nat.zero_add, List.getElem?_append_left (by rw [h]; exact hk)]
    · rw [Fin.val_succ, List.getElem?_append_right (by rw [h]; nlinarith), h]
      have e : (i.val + 1) * L + k - L = i.val * L + k := by
        have : (i.val + 1) * L = i.val * L + L := by ring
        omega
      rw [e, ih (fun i => f i.succ) (fun i => h _) i]

theorem length_flatMap_const {α : Type} {nc L : ℕ} (f : Fin nc → List α) (h : ∀ n, (f n).length = L) :
    ((List.finRange nc).flatMap f).length = nc * L := by
  rw [List.length_flatMap]
  simp [h]

/-- Reading the first fields of a body. -/
theorem zmapLoop_fields {env : ZEnv} {s : ZState} (hs : s.header = -1) (h0 : s.iValue = 0) (noData : Flt)
    {l : List (Flt × Bool)} (hl : l.length ≤ s.data.length) :
    zmapLoop env s (readLines (fieldsText noData l)) =
      .ok { s with data := l.map (fun p => zmapFlt noData p.1) ++ s.data.drop l.length, iValue := l.length } := by
  obtain ⟨h1, h2⟩ := readLines_fields noData l
  rw [zmapLoop_body hs h2, h1, storeWords_eq (vs := l.map fun p => zmapFlt noData p.1), h0]
  · simp
  · rw [List.forall₂_map_left_iff, List.forall₂_map_right_iff]
    exact List.forall₂_same.2 fun p _ => parse_zmapWord noData p.1
  · rw [h0, List.length_map]; omega
  · rw [h1]
    intro w hw
    obtain ⟨p, -, rfl⟩ := List.mem_map.1 hw
    exact zmapWord_plain _ _

end PyKrige
