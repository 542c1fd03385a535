import Mathlib.Tactic.FieldSimp
import Mathlib.Tactic.Ring
import Verif.Lemmas.Real
import Verif.Lemmas.Spelling

/-! The values of spellings in exact arithmetic, and what the exact number reader accepts. -/

set_option linter.unusedSectionVars false

namespace GoSvg

open Spec

variable [GoEnv]

theorem tenPow_eq (e : Int) : tenPow e = (10 : Rat) ^ e := by
  unfold tenPow
  split
  · rename_i h
    have : e = -(e.natAbs : Int) := by omega
    generalize e.natAbs = k at this
    subst this
    rw [zpow_neg, zpow_natCast]
    simp
  · rename_i h
    have : e = (e.natAbs : Int) := by omega
    generalize e.natAbs = k at this
    subst this
    rw [zpow_natCast]
    simp

theorem parseDec_body {n : Spelling} (h : n.WF) :
    (let (ip, r) := takeDigits n.body
     let (fp, r) := takeFrac r
     if ip = [] ∧ fp = [] then none
     else match parseExp r with
      | none => none
      | some e => some (n.neg, (digitsVal (ip ++ fp) : Rat) * tenPow (e - fp.length))) = some (n.neg, n.absValue) := by
  rw [body_eq, List.append_assoc, takeDigits_append h.ip frac_head]
  have hf : takeFrac (fracText n.frac ++ expText n.exp) = (n.frac.getD [], expText n.exp) := by
    cases hf : n.frac with
    | none =>
      simp only [fracText, List.nil_append, Option.getD_none]
      cases he : n.exp with
      | none => rfl
      | some p => rfl
    | some f =>
      simp only [fracText, List.cons_append, takeFrac, Option.getD_some]
      exact takeDigits_append (h.frac f hf) exp_head
  simp only [hf]
  have hne : ¬ (n.ip = [] ∧ n.frac.getD [] = []) := by
    rintro ⟨h1, h2⟩
    rcases h.some_digit with h3 | ⟨f, h3, h4⟩
    · exact h3 h1
    · rw [h3] at h2; exact h4 h2
  rw [if_neg hne, parseExp_exp h]
  simp only [Option.some.injEq, Prod.mk.injEq, true_and]
  rw [digitsVal_eq, natVal_append, tenPow_eq]
  have hv : ((natVal n.ip * 10 ^ (n.frac.getD []).length + natVal (n.frac.getD []) : Nat) : Rat)
      = ((natVal n.ip : Rat) + (match n.frac with | some f => (natVal f : Rat) / (10 ^ f.length : Nat) | none => 0))
        * 10 ^ (n.frac.getD []).length := by
    cases n.frac with
    | none => simp [natVal]
    | some f =>
      simp only [Option.getD_some]
      push_cast
      have : (10 : Rat) ^ f.length ≠ 0 := by positivity
      field_simp
  rw [hv, sub_eq_add_neg, zpow_add₀ (by norm_num), zpow_neg, zpow_natCast, mul_assoc]
  have : (10 : Rat) ^ (n.frac.getD []).length ≠ 0 := by positivity
  rw [mul_comm ((10 : Rat) ^ (_ : Int)), ← mul_assoc ((10 : Rat) ^ (n.frac.getD []).length), mul_inv_cancel₀ this, one_mul]
  unfold Spelling.absValue
  congr 1
  cases n.exp with
  | none => simp
  | some p =>
    obtain ⟨s, d⟩ := p
    cases s <;> simp [zpow_neg]

theorem parseDec_text {n : Spelling} (h : n.WF) : parseDec n.text = some (n.neg, n.absValue) := by
  have hb := parseDec_body h
  unfold parseDec
  have : takeSign n.text = (n.neg, n.body) := by
    cases hn : n.neg with
    | true => simp [Spelling.text, hn, takeSign]
    | false =>
      simp only [Spelling.text, hn, Bool.false_eq_true, if_false, List.nil_append]
      exact takeSign_digits (body_head h)
  rw [this]
  exact hb

theorem parse_real_text {n : Spelling} (h : n.WF) : (GoFloat.parse n.text : Option ℝ) = some (n.value : ℝ) := by
  change (match parseLit n.text with
    | some (.fin neg q) => some (if neg then -(q : ℝ) else (q : ℝ))
    | _ => none) = _
  rw [parseLit_dec (parseDec_text h)]
  simp only [Spelling.value]
  split <;> simp

theorem readAll_real (ns : List Spelling) (h : ∀ n ∈ ns, n.WF) :
    (readAll (ns.map Spelling.text) : Option (List ℝ)) = some (ns.map fun n => (n.value : ℝ)) := by
  induction ns with
  | nil => rfl
  | cons n ns ih =>
    simp only [List.map_cons, readAll]
    rw [parse_real_text (h n List.mem_cons_self), ih fun m hm => h m (List.mem_cons_of_mem _ hm)]

/-! ### The literals accepted -/

theorem takeDigits_spec (s : Str) : s = (takeDigits s).1 ++ (takeDigits s).2 ∧ Digits (takeDigits s).1 := by
  induction s with
  | nil => exact ⟨rfl, by intro c hc; simp [takeDigits] at hc⟩
  | cons c cs ih =>
    unfold takeDigits
    split
    · rename_i h
      refine ⟨by simp [← ih.1], ?_⟩
      intro d hd
      simp only [List.mem_cons] at hd
      rcases hd with rfl | hd
      · exact h
      · exact ih.2 d hd
    · exact ⟨rfl, by intro c hc; simp at hc⟩

theorem takeSign_spec (s : Str) : ∃ sign, s = sign ++ (takeSign s).2 ∧ (sign = [] ∨ sign = ['-'] ∨ sign = ['+']) := by
  unfold takeSign
  split
  · exact ⟨['-'], rfl, by simp⟩
  · exact ⟨['+'], rfl, by simp⟩
  · exact ⟨[], rfl, by simp⟩

theorem isDecimal_of_parse {t : Str} {v} (h : parseDec t = some v) : IsDecimal t := by
  obtain ⟨sign, hs, hs'⟩ := takeSign_spec t
  have hd := takeDigits_spec (takeSign t).2
  have hf : ∃ fp, (takeDigits (takeSign t).2).2 = fp ++ (takeFrac (takeDigits (takeSign t).2).2).2 ∧
      (fp = [] ∧ (takeFrac (takeDigits (takeSign t).2).2).1 = [] ∨ ∃ f, fp = '.' :: f ∧ Digits f ∧ (takeFrac (takeDigits (takeSign t).2).2).1 = f) := by
    generalize (takeDigits (takeSign t).2).2 = r
    unfold takeFrac
    split
    · rename_i r
      have := takeDigits_spec r
      exact ⟨'.' :: (takeDigits r).1, by rw [List.cons_append, ← this.1], Or.inr ⟨_, rfl, this.2, rfl⟩⟩
    · exact ⟨[], rfl, Or.inl ⟨rfl, rfl⟩⟩
  obtain ⟨fp, hfp, hfp'⟩ := hf
  unfold parseDec at h
  simp only at h
  split at h
  · simp at h
  rename_i hne
  refine ⟨sign, (takeDigits (takeSign t).2).1, fp, (takeFrac (takeDigits (takeSign t).2).2).2, ?_, hs', hd.2, ?_, ?_, ?_⟩
  · rw [List.append_assoc, ← hfp, List.append_assoc, ← hd.1, ← hs]
  · rcases hfp' with h | ⟨f, h1, h2, _⟩
    · exact Or.inl h.1
    · exact Or.inr ⟨f, h1, h2⟩
  · rcases hfp' with ⟨h1, h2⟩ | ⟨f, h1, _, h2⟩
    · left; intro hc; exact hne ⟨hc, h2⟩
    · by_cases hi : (takeDigits (takeSign t).2).1 = []
      · right
        rw [h1]
        have : f ≠ [] := by intro hc; exact hne ⟨hi, by rw [h2, hc]⟩
        have := List.length_pos_iff.2 this
        simp; omega
      · exact Or.inl hi
  · generalize (takeFrac (takeDigits (takeSign t).2).2).2 = r at h
    cases r with
    | nil => exact Or.inl rfl
    | cons e r =>
      right
      have hp : ∃ x, parseExp (e :: r) = some x := by
        cases hx : parseExp (e :: r) with
        | none => rw [hx] at h; simp at h
        | some x => exact ⟨x, rfl⟩
      obtain ⟨x, hx⟩ := hp
      rw [parseExp] at hx
      split at hx
      · rename_i he
        simp only at hx
        split at hx
        · simp at hx
        · rename_i hn
          obtain ⟨s, h1, h2⟩ := takeSign_spec r
          have h3 := takeDigits_spec (takeSign r).2
          refine ⟨e, s, (takeDigits (takeSign r).2).1, ?_, he, h2, h3.2, ?_⟩
          · rw [not_or, not_not] at hn
            rw [hn.2, List.append_nil] at h3
            rw [← h3.1, ← h1]
          · intro hc; exact hn (Or.inl hc)
      · simp at hx

theorem char_between {c : Char} {l : List Char} (a b : Nat) (h1 : a ≤ c.toNat) (h2 : c.toNat ≤ b)
    (h : ∀ n, n ≤ b → a ≤ n → Char.ofNat n ∈ l) : c ∈ l := by
  have := h c.toNat h2 h1
  rwa [Char.ofNat_toNat] at this

theorem isDigit_bounds {c : Char} (h : c.isDigit = true) : 48 ≤ c.toNat ∧ c.toNat ≤ 57 := by
  simp only [Char.isDigit, Bool.and_eq_true, decide_eq_true_eq, ge_iff_le] at h
  exact h

theorem hexDigit_spec {c : Char} {v : Nat} (h : hexDigit c = some v) : IsHexDigit c := by
  unfold hexDigit at h
  unfold IsHexDigit
  split at h
  · rename_i hd
    exact char_between 48 57 (isDigit_bounds hd).1 (isDigit_bounds hd).2 (by decide)
  · split at h
    · rename_i hd
      exact char_between 97 102 hd.1 hd.2 (by decide)
    · split at h
      · rename_i hd
        exact char_between 65 70 hd.1 hd.2 (by decide)
      · simp at h

theorem hexDigit_alphanum {c : Char} (h : IsHexDigit c) : c.isAlphanum = true := by
  have : ∀ c ∈ "0123456789abcdefABCDEF".toList, c.isAlphanum = true := by decide
  exact this c h

theorem takeHex_spec : ∀ s : Str, ∃ d, s = d ++ (takeHex s).2 ∧ (∀ c ∈ d, IsHexDigit c) ∧ (d = [] ↔ (takeHex s).1 = [])
  | [] => ⟨[], rfl, by simp, by simp [takeHex]⟩
  | c :: cs => by
    obtain ⟨d, h1, h2, h3⟩ := takeHex_spec cs
    unfold takeHex
    cases hc : hexDigit c with
    | none => exact ⟨[], rfl, by simp, by simp⟩
    | some v =>
      refine ⟨c :: d, by simp [← h1], ?_, by simp⟩
      intro x hx
      rcases List.mem_cons.1 hx with rfl | hx
      · exact hexDigit_spec hc
      · exact h2 x hx

theorem isHex_of_parse {t : Str} {v} (h : parseHexLit t = some v) : IsHexLiteral t := by
  obtain ⟨sign, hs, hs'⟩ := takeSign_spec t
  unfold parseHexLit at h
  simp only at h
  generalize (takeSign t).2 = r at h hs
  generalize (takeSign t).1 = ng at h
  split at h
  · rename_i x r
    split at h
    · rename_i hx
      obtain ⟨ip, hi1, hi2, hi3⟩ := takeHex_spec r
      generalize (takeHex r).1 = ipv at h hi3
      generalize (takeHex r).2 = r1 at h hi1
      have hf : ∃ fp, r1 = fp ++ (takeHexFrac r1).2 ∧ (fp = [] ∧ (takeHexFrac r1).1 = [] ∨
          ∃ f, fp = '.' :: f ∧ (∀ c ∈ f, IsHexDigit c) ∧ (f = [] ↔ (takeHexFrac r1).1 = [])) := by
        unfold takeHexFrac
        split
        · rename_i r'
          obtain ⟨f, hf1, hf2, hf3⟩ := takeHex_spec r'
          exact ⟨'.' :: f, by rw [List.cons_append, ← hf1], .inr ⟨f, rfl, hf2, hf3⟩⟩
        · exact ⟨[], rfl, .inl ⟨rfl, rfl⟩⟩
      obtain ⟨fp, hf1, hf2⟩ := hf
      generalize (takeHexFrac r1).1 = fpv at h hf2
      generalize (takeHexFrac r1).2 = r2 at h hf1
      split at h
      · simp at h
      · rename_i hne
        cases hr : parseHexExp r2 with
        | none => rw [hr] at h; simp at h
        | some e =>
          unfold parseHexExp at hr
          cases r2 with
          | nil => simp at hr
          | cons p r3 =>
            simp only at hr
            split at hr
            · rename_i hp
              obtain ⟨s, h1, h2⟩ := takeSign_spec r3
              have h3 := takeDigits_spec (takeSign r3).2
              split at hr
              · simp at hr
              · rename_i hn
                rw [not_or, not_not] at hn
                rw [hn.2, List.append_nil] at h3
                refine ⟨sign, ip, fp, s, (takeDigits (takeSign r3).2).1, x, p, ?_, hs', hx, hi2, ?_, ?_, hp, h2, h3.2, hn.1⟩
                · rw [← h3.1, ← h1, hs, hi1, hf1, List.append_assoc]
                · rcases hf2 with h | ⟨f, h, h', _⟩
                  · exact .inl h.1
                  · exact .inr ⟨f, h, h'⟩
                · by_cases hi : ip = []
                  · right
                    rcases hf2 with ⟨_, h⟩ | ⟨f, h, _, h'⟩
                    · exact absurd ⟨hi3.1 hi, h⟩ hne
                    · have : f ≠ [] := fun hc => hne ⟨hi3.1 hi, h'.1 hc⟩
                      have := List.length_pos_iff.2 this
                      rw [h]; simp; omega
                  · exact .inl hi
            · simp at hr
    · simp at h
  · simp at h

theorem underscore_loop (hex : Bool) : ∀ (s : Str) (i : Seen), underscoreLoop hex i s = true →
    ∀ a b, s = a ++ '_' :: b → ((a = [] ∧ i = .digit) ∨ ∃ a' c, a = a' ++ [c] ∧ IsHexDigit c) ∧ ∃ d b', b = d :: b' ∧ IsHexDigit d
  | [], _, _, a, b, he => by simp at he
  | c :: cs, i, h, a, b, he => by
    rw [underscoreLoop] at h
    have hdig : (c.isDigit || (hex && (hexDigit c).isSome)) = true → IsHexDigit c := by
      intro hc
      rw [Bool.or_eq_true, Bool.and_eq_true] at hc
      rcases hc with hc | ⟨_, hc⟩
      · exact hexDigit_spec (c := c) (v := c.toNat - 48) (by simp [hexDigit, hc])
      · obtain ⟨v, hv⟩ := Option.isSome_iff_exists.1 hc
        exact hexDigit_spec hv
    cases a with
    | nil =>
      rw [List.nil_append, List.cons.injEq] at he
      obtain ⟨rfl, rfl⟩ := he
      rw [if_neg (by simp [show ('_' : Char).isDigit = false by decide, show hexDigit '_' = none by decide]), if_pos rfl] at h
      split at h
      · rename_i hi
        refine ⟨.inl ⟨rfl, hi⟩, ?_⟩
        cases cs with
        | nil => simp [underscoreLoop] at h
        | cons d ds =>
          rw [underscoreLoop] at h
          split at h
          · rename_i hd
            refine ⟨d, ds, rfl, ?_⟩
            rw [Bool.or_eq_true, Bool.and_eq_true] at hd
            rcases hd with hc | ⟨_, hc⟩
            · exact hexDigit_spec (c := d) (v := d.toNat - 48) (by simp [hexDigit, hc])
            · obtain ⟨v, hv⟩ := Option.isSome_iff_exists.1 hc
              exact hexDigit_spec hv
          · simp at h
      · simp at h
    | cons a0 a =>
      rw [List.cons_append, List.cons.injEq] at he
      obtain ⟨rfl, he⟩ := he
      have key : ∀ j, underscoreLoop hex j cs = true → (j = .digit → IsHexDigit c) →
          ((c :: a = [] ∧ i = .digit) ∨ ∃ a' c', c :: a = a' ++ [c'] ∧ IsHexDigit c') ∧ ∃ d b', b = d :: b' ∧ IsHexDigit d := by
        intro j hj hjc
        obtain ⟨h1, h2⟩ := underscore_loop hex cs j hj a b he
        refine ⟨.inr ?_, h2⟩
        rcases h1 with ⟨rfl, hd⟩ | ⟨a', c', rfl, hc'⟩
        · exact ⟨[], c, rfl, hjc hd⟩
        · exact ⟨c :: a', c', rfl, hc'⟩
      split at h
      · rename_i hd
        exact key _ h fun _ => hdig hd
      · split at h
        · split at h
          · exact key _ h (by simp)
          · simp at h
        · split at h
          · simp at h
          · exact key _ h (by simp)

theorem isSpecial_of_parse {t : Str} {l} (h : parseSpecial t = some l) : IsSpecial t ∧ ∀ n q, l ≠ .fin n q := by
  unfold parseSpecial at h
  split at h
  · rename_i hn
    cases h
    exact ⟨⟨[], t, rfl, .inl rfl, .inr (.inr ⟨rfl, hn⟩)⟩, by simp⟩
  · obtain ⟨sign, hs, hs'⟩ := takeSign_spec t
    simp only at h
    split at h
    · rename_i hn
      cases h
      exact ⟨⟨sign, _, hs, hs', hn.imp id .inl⟩, by simp⟩
    · simp at h

/-- The same with something before it that is not an underscore. -/
theorem separators_append {p r : Str} (hp : '_' ∉ p)
    (h : ∀ a b, r = a ++ '_' :: b → ((a = [] ∧ ∃ p' c, p = p' ++ [c] ∧ c.isAlphanum = true) ∨ ∃ a' c, a = a' ++ [c] ∧ IsHexDigit c) ∧
      ∃ d b', b = d :: b' ∧ IsHexDigit d) : SeparatorsOK (p ++ r) := by
  intro a b he
  obtain ⟨a1, rfl, h1⟩ : ∃ a1, a = p ++ a1 ∧ r = a1 ++ '_' :: b := by
    rcases List.append_eq_append_iff.1 he with ⟨a1, h1, h2⟩ | ⟨c, h1, h2⟩
    · exact ⟨a1, h1, h2⟩
    · cases c with
      | nil => exact ⟨[], by simpa using h1.symm, by simpa using h2.symm⟩
      | cons x c =>
        rw [List.cons_append, List.cons.injEq] at h2
        exact absurd (by rw [h1, ← h2.1]; simp) hp
  obtain ⟨h2, h3⟩ := h a1 b h1
  refine ⟨?_, h3⟩
  rcases h2 with ⟨rfl, p', c, rfl, hc⟩ | ⟨a', c, rfl, hc⟩
  · exact ⟨p', c, by simp, hc⟩
  · exact ⟨p ++ a', c, by simp, hexDigit_alphanum hc⟩

theorem underscore_ok {s : Str} (h : underscoreOK s = true) : SeparatorsOK s := by
  obtain ⟨sign, hs, hs'⟩ := takeSign_spec s
  have hsg : '_' ∉ sign := by rcases hs' with rfl | rfl | rfl <;> decide
  unfold underscoreOK at h
  simp only at h
  have plain : ∀ r, s = sign ++ r → underscoreLoop false .start r = true → SeparatorsOK s := by
    intro r hr hl
    rw [hr]
    refine separators_append hsg fun a b he => ?_
    obtain ⟨h1, h2⟩ := underscore_loop _ _ _ hl a b he
    refine ⟨?_, h2⟩
    rcases h1 with ⟨_, h1⟩ | h1
    · simp at h1
    · exact .inr h1
  generalize (takeSign s).2 = r at h hs
  split at h
  · rename_i x r'
    split at h
    · rename_i hx
      rw [hs, show sign ++ '0' :: x :: r' = (sign ++ ['0', x]) ++ r' by simp]
      have hx' : x.isAlphanum = true ∧ x ≠ '_' := by
        constructor
        · unfold Char.toLower at hx
          simp only [Char.isAlphanum, Char.isAlpha, Char.isUpper, Char.isLower, Char.isDigit]
          split at hx
          · rename_i hu
            simp only [ge_iff_le, Bool.or_eq_true, Bool.and_eq_true, decide_eq_true_eq]
            exact .inl (.inl hu)
          · rcases hx with rfl | rfl | rfl <;> decide
        · rintro rfl
          revert hx; decide
      refine separators_append (by simp [hsg, Ne.symm hx'.2]) fun a b he => ?_
      obtain ⟨h1, h2⟩ := underscore_loop _ _ _ h a b he
      refine ⟨?_, h2⟩
      rcases h1 with ⟨h1, _⟩ | h1
      · exact .inl ⟨h1, sign ++ ['0'], x, by simp, hx'.1⟩
      · exact .inr h1
    · exact plain _ hs h
  · exact plain _ hs h

theorem separators_none {s : Str} (h : '_' ∉ s) : SeparatorsOK s := by
  rintro a b rfl
  simp at h

theorem decimal_no_underscore {s : Str} (h : IsDecimal s) : '_' ∉ s := by
  have hdig : ∀ {d : Str}, Digits d → '_' ∉ d := fun hd hc => absurd (hd _ hc) (by decide)
  obtain ⟨sign, ip, fp, ex, rfl, h1, h2, h3, -, h4⟩ := h
  have hs : ∀ {sg : Str}, (sg = [] ∨ sg = ['-'] ∨ sg = ['+']) → '_' ∉ sg := by
    rintro sg (rfl | rfl | rfl) <;> decide
  simp only [List.mem_append, not_or]
  refine ⟨⟨⟨hs h1, hdig h2⟩, ?_⟩, ?_⟩
  · rcases h3 with rfl | ⟨f, rfl, hf⟩
    · simp
    · simp [hdig hf]
  · rcases h4 with rfl | ⟨e, s, d, rfl, he, h5, h6, -⟩
    · simp
    · simp only [List.mem_cons, List.mem_append, not_or]
      refine ⟨?_, hs h5, hdig h6⟩
      rcases he with rfl | rfl <;> decide

/-- The literals accepted by the number reader. -/
theorem lit_spec {t : Str} {l} (h : parseLit t = some l) : IsGoNumber t ∧ (∃ n q, l = .fin n q) ∨ IsSpecial t ∧ ∀ n q, l ≠ .fin n q := by
  unfold parseLit at h
  cases hd : parseDec t with
  | some v =>
    rw [hd] at h
    cases h
    have h1 := isDecimal_of_parse hd
    have h2 := decimal_no_underscore h1
    refine .inl ⟨⟨separators_none h2, .inl ?_⟩, _, _, rfl⟩
    rwa [List.filter_eq_self.2]
    intro a ha
    simp only [decide_eq_true_eq, ne_eq]
    rintro rfl
    exact h2 ha
  | none =>
    rw [hd] at h
    simp only at h
    cases hsp : parseSpecial t with
    | some l' =>
      rw [hsp] at h
      cases h
      exact .inr (isSpecial_of_parse hsp)
    | none =>
      rw [hsp] at h
      simp only at h
      split at h
      · simp at h
      · rename_i hu
        have hsep : SeparatorsOK t := by
          by_cases hm : '_' ∈ t
          · have : underscoreOK t = true := by
              cases hb : underscoreOK t with
              | true => rfl
              | false => exact absurd ⟨hm, hb⟩ hu
            exact underscore_ok this
          · exact separators_none hm
        left
        cases hd2 : parseDec (t.filter (· ≠ '_')) with
        | some v =>
          rw [hd2] at h
          cases h
          exact ⟨⟨hsep, .inl (isDecimal_of_parse hd2)⟩, _, _, rfl⟩
        | none =>
          rw [hd2] at h
          simp only at h
          cases hx : parseHexLit (t.filter (· ≠ '_')) with
          | none => rw [hx] at h; simp at h
          | some v =>
            rw [hx] at h
            cases h
            exact ⟨⟨hsep, .inr (isHex_of_parse hx)⟩, _, _, rfl⟩

theorem isGoNumber_of_parse_real {t : Str} {v : ℝ} (h : (GoFloat.parse t : Option ℝ) = some v) : IsGoNumber t := by
  change (match parseLit t with
    | some (.fin neg q) => some (if neg then -(q : ℝ) else (q : ℝ))
    | _ => none) = _ at h
  cases hp : parseLit t with
  | none => rw [hp] at h; simp at h
  | some x =>
    rcases lit_spec hp with h' | h'
    · exact h'.1
    · rw [hp] at h
      cases x with
      | fin n q => exact absurd rfl (h'.2 n q)
      | inf _ => simp at h
      | nan => simp at h

end GoSvg
