import Mathlib.Tactic.Tauto
import Verif.Props.Styles
import Verif.Spec.ColorText

/-! Properties C35 to C37: colours. -/

set_option linter.unusedSectionVars false

namespace GoSvg

variable {F : Type} [GoFloat F] [GoEnv]

open Spec

/-! ### C35 -/

theorem digit_val : ∀ n < 16, ∀ c, ("0123456789abcdef".toList[n]? = some c ∨ "0123456789ABCDEF".toList[n]? = some c) →
    c.toNat < 128 ∧ hexVal c.toNat = some n := by
  intro n hn c h
  have key : ∀ n < 16, ∀ c ∈ ("0123456789abcdef".toList[n]?.toList ++ "0123456789ABCDEF".toList[n]?.toList),
      c.toNat < 128 ∧ hexVal c.toNat = some n := by decide
  apply key n hn c
  rw [List.mem_append, Option.mem_toList, Option.mem_toList]
  exact h

theorem hexDigit_val {c : Char} {n : Nat} (h : HexDigit c n) : n < 16 ∧ c.toNat < 128 ∧ hexVal c.toNat = some n := by
  have hn : n < 16 := by
    rcases h with h | h
    · exact (List.getElem?_eq_some_iff.1 h).1
    · exact (List.getElem?_eq_some_iff.1 h).1
  exact ⟨hn, digit_val n hn c h⟩

theorem hexVal_digit {c : Char} {n : Nat} (hc : c.toNat < 128) (h : hexVal c.toNat = some n) : HexDigit c n := by
  have key : ∀ m < 128, ∀ n, hexVal m = some n →
      ("0123456789abcdef".toList[n]? = some (Char.ofNat m) ∨ "0123456789ABCDEF".toList[n]? = some (Char.ofNat m)) := by
    have : ∀ m < 128, ∀ n ∈ hexVal m,
      ("0123456789abcdef".toList[n]? = some (Char.ofNat m) ∨ "0123456789ABCDEF".toList[n]? = some (Char.ofNat m)) := by decide
    exact this
  have := key c.toNat hc n h
  rwa [Char.ofNat_toNat] at this

theorem utf8_ascii {s : Str} (h : ∀ c ∈ s, c.toNat < 128) : utf8 s = s.map Char.toNat := by
  induction s with
  | nil => rfl
  | cons c s ih =>
    have e : utf8 (c :: s) = utf8Char c ++ utf8 s := rfl
    rw [e, ih fun d hd => h d (List.mem_cons_of_mem _ hd)]
    have hc : c.toNat < 0x80 := h c List.mem_cons_self
    have e2 : utf8Char c = [c.toNat] := by unfold utf8Char; exact if_pos hc
    rw [e2]; rfl

theorem toLower_hash : GoEnv.toLower '#' = '#' := by rw [GoEnv.toLower_ascii _ (by decide)]; decide

/-- A colour that starts with `#` is read by the hexadecimal reader. -/
theorem parse_hash (s : Str) : parseSVGColor ('#' :: s) = match parseSVGColorNum ('#' :: s) with
    | .ok (r, g, b) => .ok (some ⟨r, g, b, 255⟩)
    | .err e => .err e
    | .panic s => .panic s
    | .diverge => .diverge := by
  have h1 : toLower ('#' :: s) = '#' :: toLower s := by rw [toLower, List.map_cons, toLower_hash]; rfl
  have h2 : hasPrefix ('#' :: toLower s) "url".toList = false := rfl
  have h3 : GoEnv.colorName ('#' :: toLower s) = none := by
    cases h : GoEnv.colorName ('#' :: toLower s) with
    | none => rfl
    | some c => exact absurd ((GoEnv.colorName_ok _ _ h).1 '#' List.mem_cons_self) (by decide)
  have h4 : trimPrefix ('#' :: s) "rgb(".toList = '#' :: s := by
    unfold trimPrefix hasPrefix; simp
  unfold parseSVGColor
  simp only [h1, h2, h3, h4]
  rw [if_neg (by simp), if_neg (by simp), if_neg (by simp)]
  rfl

/-- C35: six hexadecimal digits, each in either case. -/
theorem C35_six {x1 x0 y1 y0 z1 z0 : Char} {r1 r0 g1 g0 b1 b0 : Nat} (h1 : HexDigit x1 r1) (h2 : HexDigit x0 r0) (h3 : HexDigit y1 g1)
    (h4 : HexDigit y0 g0) (h5 : HexDigit z1 b1) (h6 : HexDigit z0 b0) :
    parseSVGColor ['#', x1, x0, y1, y0, z1, z0] = .ok (some ⟨16 * r1 + r0, 16 * g1 + g0, 16 * b1 + b0, 255⟩) := by
  obtain ⟨-, a1, e1⟩ := hexDigit_val h1
  obtain ⟨-, a2, e2⟩ := hexDigit_val h2
  obtain ⟨-, a3, e3⟩ := hexDigit_val h3
  obtain ⟨-, a4, e4⟩ := hexDigit_val h4
  obtain ⟨-, a5, e5⟩ := hexDigit_val h5
  obtain ⟨-, a6, e6⟩ := hexDigit_val h6
  rw [parse_hash, parseSVGColorNum]
  have : utf8 (trimPrefix ['#', x1, x0, y1, y0, z1, z0] "#".toList) = [x1.toNat, x0.toNat, y1.toNat, y0.toNat, z1.toNat, z0.toNat] := by
    rw [show trimPrefix ['#', x1, x0, y1, y0, z1, z0] "#".toList = [x1, x0, y1, y0, z1, z0] from rfl, utf8_ascii]
    · rfl
    · simp; tauto
  simp only [this, List.length_cons, List.length_nil, ne_eq, not_true_eq_false, if_false, parseHex2, e1, e2, e3, e4, e5, e6]
  simp [Nat.mul_comm]

/-- C35: what is formatted is read back, for all 2^24 colours, in lower or upper case. -/
theorem C35_round_trip (upper : Bool) {r g b : Nat} (hr : r < 256) (hg : g < 256) (hb : b < 256) :
    parseSVGColor (hexColor upper r g b) = .ok (some ⟨r, g, b, 255⟩) := by
  have key : ∀ n < 16, HexDigit (hexChar upper n) n := by
    have : ∀ u : Bool, ∀ n < 16, ("0123456789abcdef".toList[n]? = some (hexChar u n) ∨ "0123456789ABCDEF".toList[n]? = some (hexChar u n)) := by
      decide
    exact this upper
  have h := C35_six (key (r / 16) (by omega)) (key (r % 16) (by omega)) (key (g / 16) (by omega)) (key (g % 16) (by omega))
    (key (b / 16) (by omega)) (key (b % 16) (by omega))
  rw [show 16 * (r / 16) + r % 16 = r by omega, show 16 * (g / 16) + g % 16 = g by omega, show 16 * (b / 16) + b % 16 = b by omega] at h
  exact h

/-- C35: three digits mean each of them twice. -/
theorem C35_three {x y z : Char} (hx : x.toNat < 128) (hy : y.toNat < 128) (hz : z.toNat < 128) :
    parseSVGColor ['#', x, y, z] = parseSVGColor ['#', x, x, y, y, z, z] := by
  rw [parse_hash, parse_hash]
  have e1 : utf8 (trimPrefix ['#', x, y, z] "#".toList) = [x.toNat, y.toNat, z.toNat] := by
    rw [show trimPrefix ['#', x, y, z] "#".toList = [x, y, z] from rfl, utf8_ascii]
    · rfl
    · simp; tauto
  have e2 : utf8 (trimPrefix ['#', x, x, y, y, z, z] "#".toList) = [x.toNat, x.toNat, y.toNat, y.toNat, z.toNat, z.toNat] := by
    rw [show trimPrefix ['#', x, x, y, y, z, z] "#".toList = [x, x, y, y, z, z] from rfl, utf8_ascii]
    · rfl
    · simp; tauto
  have : parseSVGColorNum ['#', x, y, z] = parseSVGColorNum ['#', x, x, y, y, z, z] := by
    unfold parseSVGColorNum
    simp only [e1, e2]; rfl
  rw [this]

/-- C35: with six characters one of which is not a hexadecimal digit there is an error. -/
theorem C35_not_hex {s : Str} (hl : s.length = 6) (ha : ∀ c ∈ s, c.toNat < 128) (h : ∃ c ∈ s, ∀ n, ¬ HexDigit c n) :
    parseSVGColor ('#' :: s) = .err .badHex := by
  match s, hl with
  | [x1, x0, y1, y0, z1, z0], _ =>
    rw [parse_hash]
    have e : utf8 (trimPrefix ['#', x1, x0, y1, y0, z1, z0] "#".toList) = [x1.toNat, x0.toNat, y1.toNat, y0.toNat, z1.toNat, z0.toNat] := by
      rw [show trimPrefix ['#', x1, x0, y1, y0, z1, z0] "#".toList = [x1, x0, y1, y0, z1, z0] from rfl, utf8_ascii ha]
      rfl
    have hn : ∀ c ∈ [x1, x0, y1, y0, z1, z0], (∀ n, ¬ HexDigit c n) → hexVal c.toNat = none := by
      intro c hc hh
      cases hv : hexVal c.toNat with
      | none => rfl
      | some n => exact absurd (hexVal_digit (ha c hc) hv) (hh n)
    have : parseSVGColorNum ['#', x1, x0, y1, y0, z1, z0] = .err .badHex := by
      unfold parseSVGColorNum
      simp only [e, List.length_cons, List.length_nil, ne_eq, not_true_eq_false, if_false, parseHex2]
      obtain ⟨c, hc, hh⟩ := h
      have hv := hn c hc hh
      simp only [List.mem_cons, List.not_mem_nil, or_false] at hc
      have key : ∀ a b c d e f : Option Nat, (a = none ∨ b = none ∨ c = none ∨ d = none ∨ e = none ∨ f = none) →
          (match (match a, b with | some h, some l => some (h * 16 + l) | _, _ => none) with
            | none => (Res.err .badHex : Res (Nat × Nat × Nat))
            | some r => match (match c, d with | some h, some l => some (h * 16 + l) | _, _ => none) with
              | none => .err .badHex
              | some g => match (match e, f with | some h, some l => some (h * 16 + l) | _, _ => none) with
                | none => .err .badHex
                | some b => .ok (r, g, b)) = .err .badHex := by
        intro a b c d e f h
        cases a <;> cases b <;> cases c <;> cases d <;> cases e <;> cases f <;> first | rfl | simp at h
      apply key
      rcases hc with rfl | rfl | rfl | rfl | rfl | rfl <;> simp [hv]
    rw [this]

/-- C35: likewise with three characters. -/
theorem C35_not_hex_three {x y z : Char} (ha : ∀ c ∈ [x, y, z], c.toNat < 128) (h : ∃ c ∈ [x, y, z], ∀ n, ¬ HexDigit c n) :
    parseSVGColor ['#', x, y, z] = .err .badHex := by
  simp only [List.mem_cons, List.not_mem_nil, or_false, forall_eq_or_imp, forall_eq] at ha
  rw [C35_three ha.1 ha.2.1 ha.2.2]
  obtain ⟨c, hc, hh⟩ := h
  refine C35_not_hex rfl ?_ ⟨c, ?_, hh⟩
  · simp; tauto
  · simp at hc ⊢; tauto

/-- What the code does with any other number of characters, at least three: the first three count. -/
theorem C35_other_lengths {x y z : Char} {s : Str} (ha : ∀ c ∈ x :: y :: z :: s, c.toNat < 128) (hl : s.length ≠ 3) :
    parseSVGColor ('#' :: x :: y :: z :: s) = parseSVGColor ['#', x, y, z] := by
  rw [parse_hash, parse_hash]
  have e1 : utf8 (trimPrefix ['#', x, y, z] "#".toList) = [x.toNat, y.toNat, z.toNat] := by
    rw [show trimPrefix ['#', x, y, z] "#".toList = [x, y, z] from rfl, utf8_ascii]
    · rfl
    · simp at ha ⊢; tauto
  have e2 : utf8 (trimPrefix ('#' :: x :: y :: z :: s) "#".toList) = x.toNat :: y.toNat :: z.toNat :: s.map Char.toNat := by
    rw [show trimPrefix ('#' :: x :: y :: z :: s) "#".toList = x :: y :: z :: s by simp [trimPrefix, hasPrefix], utf8_ascii ha]
    rfl
  have : parseSVGColorNum ('#' :: x :: y :: z :: s) = parseSVGColorNum ['#', x, y, z] := by
    unfold parseSVGColorNum
    simp only [e1, e2]
    rw [if_pos (by simp; omega), if_pos (by simp)]
  rw [this]

/-- What the code does with fewer than three characters: a run-time panic. -/
theorem C35_short {s : Str} (ha : ∀ c ∈ s, c.toNat < 128) (hl : s.length < 3) : parseSVGColor ('#' :: s) = .panic .color := by
  have e2 : utf8 (trimPrefix ('#' :: s) "#".toList) = s.map Char.toNat := by
    rw [show trimPrefix ('#' :: s) "#".toList = s by simp [trimPrefix, hasPrefix], utf8_ascii ha]
  rw [parse_hash]
  have : parseSVGColorNum ('#' :: s) = .panic .color := by
    unfold parseSVGColorNum
    simp only [e2]
    match s, hl with
    | [], _ => rfl
    | [a], _ => rfl
    | [a, b], _ => rfl
  rw [this]

/-! ### C36 -/

theorem digitVal_digit {c : Char} (h : c.isDigit = true) : digitVal c = some (c.toNat - '0'.toNat) := by
  unfold digitVal
  have h2 : '0' ≤ c ∧ c ≤ '9' := by
    simp only [Char.isDigit, Bool.and_eq_true, decide_eq_true_eq] at h
    exact h
  rw [if_pos h2]; rfl

theorem digitVal_none {c : Char} (h : c.isDigit = false) : digitVal c = none := by
  unfold digitVal
  rw [if_neg]
  intro h2
  have : c.isDigit = true := by
    simp only [Char.isDigit, Bool.and_eq_true, decide_eq_true_eq]
    exact h2
  rw [h] at this; exact nomatch this

theorem natGo_digits {s : Str} (h : Digits s) (acc : Nat) : natGo acc s = some (s.foldl (fun n c => n * 10 + (c.toNat - '0'.toNat)) acc) := by
  induction s generalizing acc with
  | nil => rfl
  | cons c s ih =>
    rw [natGo, digitVal_digit (h c List.mem_cons_self)]
    exact ih (fun d hd => h d (List.mem_cons_of_mem _ hd)) _

theorem natGo_some {s : Str} {acc n : Nat} (h : natGo acc s = some n) : Digits s := by
  induction s generalizing acc with
  | nil => intro c hc; simp at hc
  | cons c s ih =>
    rw [natGo] at h
    cases hd : c.isDigit with
    | false => rw [digitVal_none hd] at h; simp at h
    | true =>
      rw [digitVal_digit hd] at h
      intro d hm
      rcases List.mem_cons.1 hm with rfl | hm
      · exact hd
      · exact ih h d hm

theorem parseNat_iff {s : Str} {n : Nat} : parseNat s = some n ↔ s ≠ [] ∧ Digits s ∧ n = natVal s := by
  unfold parseNat
  by_cases hs : s = []
  · simp [hs]
  · rw [if_neg hs]
    constructor
    · intro h
      have hd := natGo_some h
      rw [natGo_digits hd, Option.some.injEq] at h
      exact ⟨hs, hd, h.symm⟩
    · rintro ⟨-, hd, rfl⟩
      rw [natGo_digits hd]; rfl

/-- strconv.Atoi reads exactly the integers that fit. -/
theorem atoi_iff {s : Str} {n : Int} : atoi s = some n ↔ ∃ t : IntText, t.WF ∧ s = t.text ∧ n = t.value := by
  constructor
  · intro h
    unfold atoi at h
    split at h
    · rename_i t
      obtain ⟨m, hm, h⟩ := Option.bind_eq_some_iff.1 h
      obtain ⟨h1, h2, rfl⟩ := parseNat_iff.1 hm
      split at h
      · rename_i hle
        rw [Option.some.injEq] at h
        refine ⟨⟨some '-', t⟩, ⟨by simp, h2, h1, ?_, ?_⟩, rfl, h.symm⟩
        · simp only [IntText.value, if_true]; omega
        · simp only [IntText.value, if_true]; omega
      · simp at h
    · rename_i t
      obtain ⟨m, hm, h⟩ := Option.bind_eq_some_iff.1 h
      obtain ⟨h1, h2, rfl⟩ := parseNat_iff.1 hm
      split at h
      · rename_i hle
        rw [Option.some.injEq] at h
        have e : (IntText.mk (some '+') t).value = natVal t := by simp [IntText.value]
        refine ⟨⟨some '+', t⟩, ⟨by simp, h2, h1, ?_, ?_⟩, rfl, by rw [e, h]⟩
        · rw [e]; omega
        · rw [e]; omega
      · simp at h
    · obtain ⟨m, hm, h⟩ := Option.bind_eq_some_iff.1 h
      obtain ⟨h1, h2, rfl⟩ := parseNat_iff.1 hm
      split at h
      · rename_i hle
        rw [Option.some.injEq] at h
        have e : (IntText.mk none s).value = natVal s := by simp [IntText.value]
        refine ⟨⟨none, s⟩, ⟨by simp, h2, h1, ?_, ?_⟩, rfl, by rw [e, h]⟩
        · rw [e]; omega
        · rw [e]; omega
      · simp at h
  · rintro ⟨⟨sign, ds⟩, ⟨hs, h1, h2, h3, h4⟩, rfl, rfl⟩
    simp only at hs h1 h2
    rcases hs with rfl | rfl | rfl
    · have e : (IntText.mk none ds).value = natVal ds := by simp [IntText.value]
      rw [e] at h3 h4 ⊢
      simp only [IntText.text, Option.toList_none, List.nil_append]
      unfold atoi
      split
      · exact absurd (h1 '-' List.mem_cons_self) (by decide)
      · exact absurd (h1 '+' List.mem_cons_self) (by decide)
      · rw [parseNat_iff.2 ⟨h2, h1, rfl⟩, Option.bind_some, if_pos (by omega)]
    · have e : (IntText.mk (some '-') ds).value = -(natVal ds : Int) := by simp [IntText.value]
      rw [e] at h3 h4 ⊢
      simp only [IntText.text, Option.toList_some, List.singleton_append, atoi]
      rw [parseNat_iff.2 ⟨h2, h1, rfl⟩, Option.bind_some, if_pos (by omega)]
    · have e : (IntText.mk (some '+') ds).value = natVal ds := by simp [IntText.value]
      rw [e] at h3 h4 ⊢
      simp only [IntText.text, Option.toList_some, List.singleton_append, atoi]
      rw [parseNat_iff.2 ⟨h2, h1, rfl⟩, Option.bind_some, if_pos (by omega)]

theorem digit_plain {c : Char} (h : c.isDigit = true) : isSpace c = false ∧ c ≠ '%' ∧ c ≠ ',' ∧ c ≠ ')' := by
  have key : ∀ n < 128, (Char.ofNat n).isDigit = true → isSpace (Char.ofNat n) = false ∧ Char.ofNat n ≠ '%' ∧ Char.ofNat n ≠ ',' ∧
      Char.ofNat n ≠ ')' := by decide
  have hn : c.toNat < 128 := by
    simp only [Char.isDigit, Bool.and_eq_true, decide_eq_true_eq] at h
    have := UInt32.le_iff_toNat_le.1 h.2
    change c.toNat ≤ 57 at this
    omega
  have := key c.toNat hn
  rw [Char.ofNat_toNat] at this
  exact this h

theorem int_chars {t : IntText} (h : t.WF) : ∀ c ∈ t.text, isSpace c = false ∧ c ≠ '%' ∧ c ≠ ',' ∧ c ≠ ')' := by
  intro c hc
  rw [IntText.text, List.mem_append, Option.mem_toList] at hc
  rcases hc with hc | hc
  · have hs := h.1
    rw [hc] at hs
    simp only [reduceCtorEq, Option.some.injEq, false_or] at hs
    rcases hs with rfl | rfl <;> decide
  · exact digit_plain (h.2.1 c hc)

theorem int_ne {t : IntText} (h : t.WF) : t.text ≠ [] := by
  intro h2
  rw [IntText.text, List.append_eq_nil_iff] at h2
  exact h.2.2.1 h2.2

theorem int_trimmed {t : IntText} (h : t.WF) : Trimmed t.text :=
  ⟨fun c hc => (int_chars h c (List.mem_of_mem_head? hc)).1, fun c hc => (int_chars h c (List.mem_of_mem_getLast? hc)).1⟩

theorem blank_not {w : Str} (hw : Blank w) {c : Char} (hc : isSpace c = false) : c ∉ w := fun hm => by
  rw [hw c hm] at hc; exact nomatch hc

/-- What the code makes of a component: the low byte of the number cut off at 255, or of the percentage. -/
theorem component_value {c : Component} (h : c.WF) : parseColorValue c.text =
    .ok (toU8 (if c.percent then (wrap64 (c.int.value * 255)).tdiv 100 else min c.int.value 255)) := by
  obtain ⟨h1, h2, h3⟩ := h
  have hat : atoi c.int.text = some c.int.value := atoi_iff.2 ⟨_, h3, rfl, rfl⟩
  have htr : trimSpace (c.before ++ c.int.text ++ c.after) = c.int.text := trimSpace_pad h1 h2 (int_trimmed h3)
  unfold parseColorValue
  cases hp : c.percent with
  | true =>
    have e : c.text = (c.before ++ c.int.text ++ c.after) ++ ['%'] := by simp [Component.text, hp]
    rw [e, List.getLast?_concat, List.dropLast_concat, htr, hat]
    rfl
  | false =>
    have e : c.text = c.before ++ c.int.text ++ c.after := by simp [Component.text, hp]
    rw [e]
    have hl : ∃ d, (c.before ++ c.int.text ++ c.after).getLast? = some d ∧ d ≠ '%' := by
      cases hlast : (c.before ++ c.int.text ++ c.after).getLast? with
      | none => rw [List.getLast?_eq_none_iff] at hlast; simp [int_ne h3] at hlast
      | some d =>
        refine ⟨d, rfl, ?_⟩
        rintro rfl
        have := List.mem_of_mem_getLast? hlast
        simp only [List.mem_append] at this
        rcases this with (hm | hm) | hm
        · exact blank_not h1 (by decide) hm
        · exact (int_chars h3 _ hm).2.1 rfl
        · exact blank_not h2 (by decide) hm
    obtain ⟨d, hd, hne⟩ := hl
    rw [hd]
    split
    · rename_i h'; simp at h'
    · rename_i h'; rw [Option.some.injEq] at h'; exact absurd h' hne
    · rw [htr, hat]
      dsimp only
      congr 2
      simp only [Bool.false_eq_true, if_false]
      split <;> omega

/-- A component that is read is one of those. -/
theorem component_of_ok {v : Str} {n : Nat} (h : parseColorValue v = .ok n) : ∃ c : Component, c.WF ∧ v = c.text := by
  unfold parseColorValue at h
  split at h
  · simp at h
  · rename_i hl
    split at h
    · simp at h
    · rename_i m ha
      obtain ⟨t, ht, e, -⟩ := atoi_iff.1 ha
      obtain ⟨w, w', e2, hw, hw'⟩ := trimSpace_spec v.dropLast
      refine ⟨⟨w, t, w', true⟩, ⟨hw, hw'.1, ht⟩, ?_⟩
      obtain ⟨ys, hys⟩ := List.getLast?_eq_some_iff.1 hl
      rw [hys, List.dropLast_concat] at e2
      rw [hys, Component.text]
      simp only [if_true]
      rw [hys, List.dropLast_concat] at e
      rw [e] at e2
      rw [e2]
  · rename_i hne
    split at h
    · simp at h
    · rename_i m ha
      obtain ⟨t, ht, e, -⟩ := atoi_iff.1 ha
      obtain ⟨w, w', e2, hw, hw'⟩ := trimSpace_spec v
      refine ⟨⟨w, t, w', false⟩, ⟨hw, hw'.1, ht⟩, ?_⟩
      rw [Component.text]
      simp only [Bool.false_eq_true, if_false, List.append_nil]
      rw [← e]; exact e2

theorem parse_rgb (s : Str) : parseSVGColor ("rgb(".toList ++ s ++ ")".toList) = match split ',' s with
      | [v0, v1, v2] => do
        let r ← parseColorValue v0
        let g ← parseColorValue v1
        let b ← parseColorValue v2
        .ok (some ⟨r, g, b, 255⟩)
      | _ => .err .paramMismatch := by
  have e : "rgb(".toList ++ s ++ ")".toList = 'r' :: 'g' :: 'b' :: '(' :: (s ++ [')']) := rfl
  have h1 : toLower ("rgb(".toList ++ s ++ ")".toList) = 'r' :: 'g' :: 'b' :: '(' :: toLower (s ++ [')']) := by
    rw [e, toLower, List.map_cons, List.map_cons, List.map_cons, List.map_cons, GoEnv.toLower_ascii 'r' (by decide),
      GoEnv.toLower_ascii 'g' (by decide), GoEnv.toLower_ascii 'b' (by decide), GoEnv.toLower_ascii '(' (by decide)]
    rfl
  have h2 : hasPrefix ('r' :: 'g' :: 'b' :: '(' :: toLower (s ++ [')'])) "url".toList = false := rfl
  have h3 : GoEnv.colorName ('r' :: 'g' :: 'b' :: '(' :: toLower (s ++ [')'])) = none := by
    cases h : GoEnv.colorName ('r' :: 'g' :: 'b' :: '(' :: toLower (s ++ [')'])) with
    | none => rfl
    | some c => exact absurd ((GoEnv.colorName_ok _ _ h).1 '(' (by simp)) (by decide)
  have h4 : trimPrefix ("rgb(".toList ++ s ++ ")".toList) "rgb(".toList = s ++ ")".toList := by
    rw [List.append_assoc]; exact trimPrefix_append _ _
  have h5 : s ++ ")".toList ≠ "rgb(".toList ++ s ++ ")".toList := by
    intro h
    have := congrArg List.length h
    simp at this
  unfold parseSVGColor
  simp only [h1, h2, h3, h4]
  rw [if_neg (by simp), if_neg (by simp), if_pos h5, trimSuffix_append]
  rfl

theorem component_no_comma {c : Component} (h : c.WF) : ',' ∉ c.text := by
  obtain ⟨h1, h2, h3⟩ := h
  rw [Component.text]
  simp only [List.mem_append]
  rintro (((hm | hm) | hm) | hm)
  · exact blank_not h1 (by decide) hm
  · exact (int_chars h3 _ hm).2.2.1 rfl
  · exact blank_not h2 (by decide) hm
  · split at hm <;> simp at hm

/-- What `rgb()` with three components gives. -/
theorem C36_value {x y z : Component} (hx : x.WF) (hy : y.WF) (hz : z.WF) :
    parseSVGColor (rgbText x.text y.text z.text) = .ok (some ⟨
      toU8 (if x.percent then (wrap64 (x.int.value * 255)).tdiv 100 else min x.int.value 255),
      toU8 (if y.percent then (wrap64 (y.int.value * 255)).tdiv 100 else min y.int.value 255),
      toU8 (if z.percent then (wrap64 (z.int.value * 255)).tdiv 100 else min z.int.value 255), 255⟩) := by
  rw [rgbText, parse_rgb, split_append_sep (component_no_comma hx), split_append_sep (component_no_comma hy),
    split_no_sep (component_no_comma hz)]
  dsimp only
  rw [component_value hx, component_value hy, component_value hz]
  rfl

theorem in_range_value {c : Component} (hr : c.InRange) :
    ((toU8 (if c.percent then (wrap64 (c.int.value * 255)).tdiv 100 else min c.int.value 255) : Nat) : Int) = c.meaning := by
  obtain ⟨h0, h1⟩ := hr
  unfold Component.meaning limit toU8
  cases hp : c.percent with
  | true =>
    have := h1 hp
    simp only [if_true]
    have hw : wrap64 (c.int.value * 255) = c.int.value * 255 := by
      unfold wrap64
      apply Int.bmod_eq_of_le <;> omega
    rw [hw, Int.tdiv_eq_ediv_of_nonneg (by omega)]
    omega
  | false =>
    simp only [Bool.false_eq_true, if_false]
    omega

/-- C36 for the components that are read right: numbers from 0 on, percentages from 0 to 100. -/
theorem C36_rgb_partial {x y z : Component} (hx : x.WF) (hy : y.WF) (hz : z.WF) (rx : x.InRange) (ry : y.InRange) (rz : z.InRange) :
    ∃ r g b : Nat, parseSVGColor (rgbText x.text y.text z.text) = .ok (some ⟨r, g, b, 255⟩) ∧
      (r : Int) = x.meaning ∧ (g : Int) = y.meaning ∧ (b : Int) = z.meaning :=
  ⟨_, _, _, C36_value hx hy hz, in_range_value rx, in_range_value ry, in_range_value rz⟩

/-- C36: nothing but three components is accepted. -/
theorem C36_only_three {s : Str} {c : Option Color} (h : parseSVGColor ("rgb(".toList ++ s ++ ")".toList) = .ok c) :
    ∃ x y z : Component, x.WF ∧ y.WF ∧ z.WF ∧ "rgb(".toList ++ s ++ ")".toList = rgbText x.text y.text z.text := by
  rw [parse_rgb] at h
  split at h
  · rename_i v0 v1 v2 hs
    cases e0 : parseColorValue v0 with
    | ok a =>
      cases e1 : parseColorValue v1 with
      | ok b =>
        cases e2 : parseColorValue v2 with
        | ok d =>
          obtain ⟨x, hx, rfl⟩ := component_of_ok e0
          obtain ⟨y, hy, rfl⟩ := component_of_ok e1
          obtain ⟨z, hz, rfl⟩ := component_of_ok e2
          refine ⟨x, y, z, hx, hy, hz, ?_⟩
          have := split_join ',' s
          rw [hs] at this
          rw [rgbText, ← this]
          simp [List.intercalate]
        | err e => rw [e0, e1, e2] at h; simp at h
        | panic e => rw [e0, e1, e2] at h; simp at h
        | diverge => rw [e0, e1, e2] at h; simp at h
      | err e => rw [e0, e1] at h; simp at h
      | panic e => rw [e0, e1] at h; simp at h
      | diverge => rw [e0, e1] at h; simp at h
    | err e => rw [e0] at h; simp at h
    | panic e => rw [e0] at h; simp at h
    | diverge => rw [e0] at h; simp at h
  · simp at h

theorem colorValue_nonempty {v : Str} (h : v ≠ []) : (∃ n, parseColorValue v = .ok n) ∨ ∃ e, parseColorValue v = .err e := by
  unfold parseColorValue
  split
  · rename_i hl; rw [List.getLast?_eq_none_iff] at hl; exact absurd hl h
  · split
    · exact .inr ⟨_, rfl⟩
    · exact .inl ⟨_, rfl⟩
  · split
    · exact .inr ⟨_, rfl⟩
    · exact .inl ⟨_, rfl⟩

/-- C36: anything else between the parentheses is an error, as long as no component is empty (see `C36_empty_false`). -/
theorem C36_error_partial {s : Str} (hne : ∀ p ∈ split ',' s, p ≠ [])
    (h : ∀ x y z : Component, x.WF → y.WF → z.WF → "rgb(".toList ++ s ++ ")".toList ≠ rgbText x.text y.text z.text) :
    ∃ e, parseSVGColor ("rgb(".toList ++ s ++ ")".toList) = .err e := by
  cases hp : parseSVGColor ("rgb(".toList ++ s ++ ")".toList) with
  | ok c =>
    obtain ⟨x, y, z, hx, hy, hz, e⟩ := C36_only_three hp
    exact absurd e (h x y z hx hy hz)
  | err e => exact ⟨e, rfl⟩
  | panic e =>
    exfalso
    rw [parse_rgb] at hp
    split at hp
    · rename_i v0 v1 v2 hs
      rw [hs] at hne
      simp only [List.mem_cons, List.not_mem_nil, or_false, forall_eq_or_imp, forall_eq] at hne
      rcases colorValue_nonempty hne.1 with ⟨a, ha⟩ | ⟨a, ha⟩ <;> rw [ha] at hp
      · rcases colorValue_nonempty hne.2.1 with ⟨b, hb⟩ | ⟨b, hb⟩ <;> rw [hb] at hp
        · rcases colorValue_nonempty hne.2.2 with ⟨d, hd⟩ | ⟨d, hd⟩ <;> rw [hd] at hp <;> simp at hp
        · simp at hp
      · simp at hp
    · simp at hp
  | diverge =>
    exfalso
    rw [parse_rgb] at hp
    split at hp
    · rename_i v0 v1 v2 hs
      rw [hs] at hne
      simp only [List.mem_cons, List.not_mem_nil, or_false, forall_eq_or_imp, forall_eq] at hne
      rcases colorValue_nonempty hne.1 with ⟨a, ha⟩ | ⟨a, ha⟩ <;> rw [ha] at hp
      · rcases colorValue_nonempty hne.2.1 with ⟨b, hb⟩ | ⟨b, hb⟩ <;> rw [hb] at hp
        · rcases colorValue_nonempty hne.2.2 with ⟨d, hd⟩ | ⟨d, hd⟩ <;> rw [hd] at hp <;> simp at hp
        · simp at hp
      · simp at hp
    · simp at hp

/-! ### C37 -/

/-- `s` is `name` in some mixture of upper and lower case. -/
def AnyCase (s name : Str) : Prop := (∀ c ∈ s, c.toNat < 128) ∧ s.map Char.toLower = name

theorem toLower_anyCase {s name : Str} (h : AnyCase s name) : toLower s = name := by
  rw [toLower_ascii_str h.1, h.2]

theorem parse_none {s : Str} (h : AnyCase s "none".toList) : parseSVGColor s = .ok none := by
  unfold parseSVGColor
  simp only [toLower_anyCase h]
  rfl

theorem parse_name {s name : Str} {c : Color} (h : AnyCase s name) (hc : GoEnv.colorName name = some c) : parseSVGColor s = .ok (some c) := by
  obtain ⟨-, h1, h2, hr, hg, hb, ha⟩ := GoEnv.colorName_ok name c hc
  unfold parseSVGColor
  simp only [toLower_anyCase h, h2, hc]
  rw [if_neg (by simp), if_neg h1]
  have e' : ∀ n : Nat, n < 256 → toU8 ((n : Int) * 257) = n := by
    intro n hn; unfold toU8; omega
  rw [e' _ hr, e' _ hg, e' _ hb, e' _ (by omega : c.a < 256)]

theorem parse_url {s : Str} (h : hasPrefix (toLower s) "url".toList = true) : parseSVGColor s = .ok (some ⟨0, 0, 0, 255⟩) := by
  unfold parseSVGColor
  simp only [h, if_true]

theorem parse_other {s : Str} (h1 : hasPrefix (toLower s) "url".toList = false) (h2 : toLower s ≠ "none".toList)
    (h3 : GoEnv.colorName (toLower s) = none) (h4 : hasPrefix s "rgb(".toList = false) (h5 : s.head? ≠ some '#') (h6 : s ≠ []) :
    parseSVGColor s = .err .paramMismatch := by
  unfold parseSVGColor
  have : trimPrefix s "rgb(".toList = s := by rw [trimPrefix, h4]; simp
  simp only [h1, h3, this]
  rw [if_neg (by simp), if_neg h2, if_neg (by simp)]
  cases s with
  | nil => exact absurd rfl h6
  | cons c s =>
    dsimp only
    rw [if_neg (by simpa using h5)]

/-- The two paints of a style. -/
inductive PaintProp where
  | fill
  | stroke

def PaintProp.name : PaintProp → String
  | .fill => "fill"
  | .stroke => "stroke"

/-- The style with that paint. -/
def PaintProp.set (p : PaintProp) (st : PathStyle F) (x : Option (Pattern F)) : PathStyle F :=
  match p with
  | .fill => { st with fillerColor := x }
  | .stroke => { st with linerColor := x }

/-- An element with just the attribute `fill` or `stroke`, of a value that is no gradient reference. -/
theorem pushStyle_paint (p : PaintProp) {v : Str} (hv : Trimmed v) (hc : ':' ∉ v) {c : Cursor F} {top : PathStyle F}
    {rest : List (PathStyle F)} (hs : c.styleStack = top :: rest) (hg : ∀ d, readGradURL c.svg v d = none) :
    pushStyle [⟨p.name.toList, v⟩] c = match parseSVGColor v with
      | .ok col => (.ok (), { c with styleStack := p.set top (col.map .plain) :: top :: rest })
      | .err e => (.err e, c)
      | .panic s => (.panic s, c)
      | .diverge => (.diverge, c) := by
  have hn : PropName p.name.toList := by cases p <;> exact ⟨by decide, by decide⟩
  rw [pushStyle_single hn hv hc hs, readStyleAttr_eff]
  cases p with
  | fill =>
    rw [PaintProp.name, styleEff, if_pos rfl, hg]
    simp only [runEff, SM.lift_run]
    cases parseSVGColor v <;> simp [hs, PaintProp.set]
  | stroke =>
    rw [PaintProp.name, styleEff, if_neg (by decide), if_neg (by decide), if_pos rfl, hg]
    simp only [runEff, SM.lift_run]
    cases parseSVGColor v <;> simp [hs, PaintProp.set]

theorem trimmed_of_no_space {s : Str} (h : ∀ c ∈ s, isSpace c = false) : Trimmed s :=
  ⟨fun c hc => h c (List.mem_of_mem_head? hc), fun c hc => h c (List.mem_of_mem_getLast? hc)⟩

theorem anyCase_chars {s name : Str} (h : AnyCase s name) (hn : ∀ c ∈ name, c.isLower = true) : (∀ c ∈ s, isSpace c = false) ∧ ':' ∉ s := by
  have key : ∀ n < 128, (Char.ofNat n).toLower.isLower = true → isSpace (Char.ofNat n) = false ∧ Char.ofNat n ≠ ':' := by decide
  have all : ∀ c ∈ s, isSpace c = false ∧ c ≠ ':' := by
    intro c hc
    have h1 := key c.toNat (h.1 c hc)
    rw [Char.ofNat_toNat] at h1
    apply h1
    apply hn
    rw [← h.2]
    exact List.mem_map_of_mem hc
  exact ⟨fun c hc => (all c hc).1, fun hm => (all _ hm).2 rfl⟩

theorem no_url {svg : Svg F} {s : Str} (h : hasPrefix s "url(".toList = false) (d) : readGradURL svg s d = none := readGradURL_plain h d

theorem anyCase_no_url {s name : Str} (h : AnyCase s name) (hn : hasPrefix name "url".toList = false) : hasPrefix s "url(".toList = false := by
  rw [Bool.eq_false_iff] at hn ⊢
  intro hp
  apply hn
  rw [hasPrefix_iff] at hp ⊢
  obtain ⟨t, rfl⟩ := hp
  rw [← h.2, List.map_append]
  exact ⟨'(' :: (t.map Char.toLower), by simp⟩

/-- C37: `none`, in any case, turns painting off and changes nothing else. -/
theorem C37_none (p : PaintProp) {v : Str} (h : AnyCase v "none".toList) {c : Cursor F} {top : PathStyle F}
    {rest : List (PathStyle F)} (hs : c.styleStack = top :: rest) :
    pushStyle [⟨p.name.toList, v⟩] c = (.ok (), { c with styleStack := p.set top none :: top :: rest }) := by
  obtain ⟨h1, h2⟩ := anyCase_chars h (by decide)
  rw [pushStyle_paint p (trimmed_of_no_space h1) h2 hs (no_url (anyCase_no_url h (by decide))), parse_none h]
  rfl

/-- C37: a colour name, in any case, gives exactly the colour of the table. -/
theorem C37_name (p : PaintProp) {v name : Str} {col : Color} (h : AnyCase v name) (hn : GoEnv.colorName name = some col) {c : Cursor F}
    {top : PathStyle F} {rest : List (PathStyle F)} (hs : c.styleStack = top :: rest) :
    pushStyle [⟨p.name.toList, v⟩] c = (.ok (), { c with styleStack := p.set top (some (.plain col)) :: top :: rest }) := by
  have hok := GoEnv.colorName_ok name col hn
  obtain ⟨h1, h2⟩ := anyCase_chars h hok.1
  rw [pushStyle_paint p (trimmed_of_no_space h1) h2 hs (no_url (anyCase_no_url h hok.2.2.1)), parse_name h hn]
  rfl

/-- C37: a reference that leads nowhere gives opaque black. -/
theorem C37_unresolved (p : PaintProp) {w w' id : Str} (hw : Blank w) (hw' : Blank w') (hid : id.getLast?.all fun c => !isSpace c)
    (hcol : ':' ∉ id) {c : Cursor F} (hc : ':' ∉ w ∧ ':' ∉ w')
    (hn : c.svg.grads.find id = none) {top : PathStyle F} {rest : List (PathStyle F)} (hs : c.styleStack = top :: rest) :
    pushStyle [⟨p.name.toList, "url(".toList ++ (w ++ '#' :: id ++ w') ++ ")".toList⟩] c =
      (.ok (), { c with styleStack := p.set top (some (.plain ⟨0, 0, 0, 255⟩)) :: top :: rest }) := by
  have ht : Trimmed ("url(".toList ++ (w ++ '#' :: id ++ w') ++ ")".toList) := by
    constructor
    · intro c hc; simp at hc; subst hc; decide
    · intro c hc
      rw [show ")".toList = [')'] from rfl, List.getLast?_concat, Option.some.injEq] at hc
      subst hc; decide
  rw [pushStyle_paint p ht (by simp; tauto) hs (fun d => by rw [C61_gradient_url c.svg d id hid hw hw', hn]; rfl), parse_url]
  · rfl
  · rw [hasPrefix_iff]
    have e : toLower ("url(".toList ++ (w ++ '#' :: id ++ w') ++ ")".toList) =
        "url".toList ++ (toLower ("(".toList ++ (w ++ '#' :: id ++ w') ++ ")".toList)) := by
      rw [show "url(".toList ++ (w ++ '#' :: id ++ w') ++ ")".toList = "url".toList ++ ("(".toList ++ (w ++ '#' :: id ++ w') ++ ")".toList) by simp,
        toLower_append, toLower_ascii_str (w := "url".toList) (by decide)]
      rfl
    exact ⟨_, e.symm⟩

/-- C37: anything else that is neither `rgb(...` nor `#...` is an error, in every mode. -/
theorem C37_other_partial (p : PaintProp) {v : Str} (hv : Trimmed v) (hc : ':' ∉ v) (h1 : hasPrefix (toLower v) "url".toList = false)
    (h2 : toLower v ≠ "none".toList) (h3 : GoEnv.colorName (toLower v) = none) (h4 : hasPrefix v "rgb(".toList = false)
    (h5 : v.head? ≠ some '#') (h6 : v ≠ []) {c : Cursor F} {top : PathStyle F} {rest : List (PathStyle F)} (hs : c.styleStack = top :: rest) :
    pushStyle [⟨p.name.toList, v⟩] c = (.err .paramMismatch, c) := by
  have hu : hasPrefix v "url(".toList = false := by
    rw [Bool.eq_false_iff] at h1 ⊢
    intro hp
    apply h1
    rw [hasPrefix_iff] at hp ⊢
    obtain ⟨t, rfl⟩ := hp
    refine ⟨toLower ('(' :: t), ?_⟩
    rw [show "url(".toList ++ t = "url".toList ++ '(' :: t by simp, toLower_append, toLower_ascii_str (w := "url".toList) (by decide)]
    rfl
  rw [pushStyle_paint p hv hc hs (no_url hu), parse_other h1 h2 h3 h4 h5 h6]

end GoSvg

namespace GoSvg

open Spec

section Examples

attribute [local instance] asciiEnv
attribute [local instance] dummyLibm

/-- C35 for a colour in mixed case. -/
example : parseSVGColor "#fFa07A".toList = .ok (some ⟨255, 160, 122, 255⟩) :=
  C35_six (r1 := 15) (r0 := 15) (g1 := 10) (g0 := 0) (b1 := 7) (b0 := 10) (.inl rfl) (.inr rfl) (.inl rfl) (.inl rfl) (.inl rfl) (.inr rfl)

/-- A character that is no hexadecimal digit. -/
example : ∀ n, ¬ HexDigit 'g' n := by
  intro n h
  obtain ⟨-, -, h⟩ := hexDigit_val h
  exact absurd h (by simp [hexVal])

/-- C35 is false for texts of other lengths: `#abcz` has a character that is no digit and is accepted; `#ab` panics. -/
theorem C35_lengths_false : parseSVGColor "#abcz".toList = .ok (some ⟨170, 187, 204, 255⟩) ∧ parseSVGColor "#ab".toList = .panic .color := by
  decide +kernel

def five : Component := ⟨[], ⟨none, "5".toList⟩, [], false⟩

theorem five_wf : five.WF := by
  refine ⟨by intro c hc; simp [five] at hc, by intro c hc; simp [five] at hc, by simp [five], ?_, by simp [five], ?_, ?_⟩
  · unfold Digits; decide
  · decide
  · decide

/-- C36 applied: `rgb( 300 ,50%,5)`. -/
example : ∃ r g b : Nat, parseSVGColor "rgb( 300 ,50%,5)".toList = .ok (some ⟨r, g, b, 255⟩) ∧
    (r : Int) = 255 ∧ (g : Int) = 127 ∧ (b : Int) = 5 := by
  have hx : (⟨[' '], ⟨none, "300".toList⟩, [' '], false⟩ : Component).WF := by
    refine ⟨by intro c hc; simp at hc; subst hc; rfl, by intro c hc; simp at hc; subst hc; rfl, by simp, ?_, by simp, ?_, ?_⟩
    · unfold Digits; decide
    · decide
    · decide
  have hy : (⟨[], ⟨none, "50".toList⟩, [], true⟩ : Component).WF := by
    refine ⟨by intro c hc; simp at hc, by intro c hc; simp at hc, by simp, ?_, by simp, ?_, ?_⟩
    · unfold Digits; decide
    · decide
    · decide
  obtain ⟨r, g, b, h, h1, h2, h3⟩ :=
    C36_rgb_partial hx hy five_wf (by unfold Component.InRange; decide) (by unfold Component.InRange; decide) (by unfold Component.InRange; decide)
  refine ⟨r, g, b, ?_, h1.trans (by decide), h2.trans (by decide), h3.trans (by decide)⟩
  rw [← h]
  exact congrArg parseSVGColor (by decide)

/-- C36 is false for negative numbers, for percentages above 100 and for a space behind the percent sign. -/
theorem C36_clamp_false : parseSVGColor "rgb(-1,0,0)".toList = .ok (some ⟨255, 0, 0, 255⟩) ∧
    parseSVGColor "rgb(101%,0,0)".toList = .ok (some ⟨1, 0, 0, 255⟩) ∧ parseSVGColor "rgb(50% ,0,0)".toList = .err .badInt := by
  decide +kernel

/-- C36 is false for an empty component: a panic, not an error. -/
theorem C36_empty_false : parseSVGColor "rgb(1,,3)".toList = .panic .color := by decide +kernel

/-- C37 applied to a name. -/
example (c : Cursor F64) (top) (rest) (hs : c.styleStack = top :: rest) : pushStyle (attrsOf [("fill", "LightSalmon")]) c =
    (.ok (), { c with styleStack := { top with fillerColor := some (.plain ⟨255, 160, 122, 255⟩) } :: top :: rest }) :=
  C37_name .fill (v := "LightSalmon".toList) (name := "lightsalmon".toList) ⟨by decide, by decide⟩ (by decide +kernel) hs

/-- C37 applied to a missing gradient. -/
example : (pushStyle (attrsOf [("stroke", "url( #a)")]) (initCursor (F := F64) .strict)) =
    (.ok (), { initCursor (F := F64) .strict with styleStack := [{ defaultStyle with linerColor := some (.plain ⟨0, 0, 0, 255⟩) }, defaultStyle] }) :=
  C37_unresolved .stroke (w := [' ']) (w' := []) (id := ['a']) (by unfold Blank; decide) (by intro c hc; simp at hc) (by decide) (by decide) (by decide) rfl rfl

/-- C37 applied to a value that is not a colour. -/
example : pushStyle (attrsOf [("fill", "reddish")]) (initCursor (F := F64) .ignore) = (.err .paramMismatch, initCursor .ignore) :=
  C37_other_partial .fill (by decide) (by decide) (by decide) (by decide) (by decide +kernel) (by decide) (by decide) (by decide) rfl

/-- C37 is false for the empty value: a panic, not an error. -/
theorem C37_empty_false : (pushStyle (attrsOf [("fill", "")]) (initCursor (F := F64) .ignore)).1 = .panic .color := by decide +kernel

end Examples

end GoSvg
