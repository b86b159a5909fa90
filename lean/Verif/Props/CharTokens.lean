import Verif.Proofs.Chars7
/-!
Properties C57–C61: tokens made of characters that can be written in several ways: encoded in UTF-8 or
escaped, and with line continuations between them.
-/
namespace CodeParser.Props
open CodeParser Spec

section
variable (cfg : Cfg) (pol : Pol) (g : Bool) (s : St) (h0 : s.eof = false)
include h0

theorem wf_of_eof : WF s := by intro h; rw [h0] at h; cases h

/-! ### C57: characters that are a token by themselves -/

/-- C57: a character that is a token by itself is one, however it is written; the token has the kind of
the character, and its text is what has been written for it. -/
theorem C57_lone (c : WLC) (r : List UInt8) (k : TK) (hc : NextChar s.rest c r) (hk : Lone c.point k) :
    ∃ text, s.rest = text ++ r ∧ NextWith cfg pol g s (kindWith pol g k) text r := by
  have hwf := wf_of_eof s h0
  obtain ⟨text, ht⟩ := hc.suffix
  refine ⟨text, ht, next_of_gives (nextToken_char hwf hc fun t hlt => ?_)⟩
  rw [lone_dispatch hk]
  exact lex_tok hlt ht

/-- C57: every text without an escaped surrogate has a next character, unless what is next is reported as
badly encoded. -/
theorem C57_total (hsu : ¬ HasSurrogateEscape s.rest) :
    (∃ c r, NextChar s.rest c r) ∨ ∃ text r, NextWith cfg pol g s .Error_UnsafeCharacterEncoding text r := by
  have hwf := wf_of_eof s h0
  have h1 := nextC_any (cfg := cfg) hwf
  have h2 := nextC_wp (cfg := cfg) hwf
  unfold wp at h1 h2
  cases hn : nextC cfg s with
  | error e =>
    rw [hn] at h2
    exact absurd h2.2 hsu
  | ok x =>
    obtain ⟨c, t⟩ := x
    rw [hn] at h1 h2
    by_cases hu : c.point.isMBUnsafe = false
    · exact .inl ⟨_, _, h1 hu⟩
    · right
      simp only [Bool.not_eq_false] at hu
      have hR := h2.1
      obtain ⟨ds, h4, -⟩ := hR.path
      have hlex : Lex cfg s t.rest t := ⟨hwf, hR.wf, ⟨ds, h4⟩, rfl⟩
      obtain ⟨text, ht⟩ := R.suffix hwf hR
      refine ⟨text, t.rest, next_of_gives ?_⟩
      unfold nextToken
      refine lex_mark ?_
      have hd : dispatch cfg (polIn pol g) s c = tok .Error_UnsafeCharacterEncoding s := by
        obtain ⟨p, e⟩ := c
        cases p <;> first | rfl | cases hu
      have := lex_tok (E := fun _ => False) (k := .Error_UnsafeCharacterEncoding) hlex ht
      rw [← hd] at this
      unfold wp at this ⊢
      rw [bind_ok hn]
      exact this

/-! ### C58: names, strings and linear syntax -/

/-- C58: a name, with or without contexts, is one token that reaches as far as its letters, digits and
backquotes do, whatever letters it is made of and however they are written.  (Behind `#` it is called a
string.) -/
theorem C58_name (k : TK) (r : List UInt8) (h : NameAt s.rest k r) :
    ∃ text, s.rest = text ++ r ∧ NextWith cfg pol g s (kindWith pol g k) text r := by
  obtain ⟨text, ht⟩ := h.suffix
  exact ⟨text, ht, next_of_gives (name_token (wf_of_eof s h0) h ht)⟩

/-- C58: a string is one token that reaches to the first double quote that is not escaped. -/
theorem C58_string (c : WLC) (q : List UInt8) (k : TK) (r : List UInt8) (hc : NextChar s.rest c q) (hq : c.point = ch '"')
    (h : QuoteEnd q k r) : ∃ text, s.rest = text ++ r ∧ NextWith cfg pol g s k text r := by
  obtain ⟨text, ht⟩ := suffix_trans hc.suffix h.suffix
  refine ⟨text, ht, next_of_gives (nextToken_char (wf_of_eof s h0) hc fun t hlt => ?_)⟩
  have hd : dispatch cfg (polIn pol g) s c = handleString cfg s c := by
    obtain ⟨p, e⟩ := c
    simp only at hq
    subst hq
    rfl
  rw [hd]
  exact quote_token hlt hq h ht

/-- C58: so is a string without escapes, even if it is badly encoded. -/
theorem C58_plain (body r : List UInt8) (hs : s.rest = byte '"' :: body ++ byte '"' :: r) (h1 : byte '"' ∉ body) (h2 : byte '\\' ∉ body) :
    NextWith cfg pol g s .String (byte '"' :: body ++ [byte '"']) r := by
  refine next_of_gives (lex_start (b := byte '"') (r := body ++ byte '"' :: r) (wf_of_eof s h0) hs (by decide) (by decide) (by decide) fun t hlt => ?_)
  exact plain_quote_token (c := ⟨ch '"', .none⟩) hlt rfl h1 h2 (by rw [hs]; simp)

/-- C58: linear syntax is one token that reaches from `\(` to the `\)` that closes it. -/
theorem C58_blob (c : WLC) (q : List UInt8) (k : TK) (r : List UInt8) (hc : NextChar s.rest c q) (hq : c.point = .char 0xf7c9)
    (h : BlobEnd 0 q k r) : ∃ text, s.rest = text ++ r ∧ NextWith cfg pol g s k text r := by
  obtain ⟨text, ht⟩ := suffix_trans hc.suffix h.suffix
  refine ⟨text, ht, next_of_gives (nextToken_char (wf_of_eof s h0) hc fun t hlt => ?_)⟩
  have hd : dispatch cfg (polIn pol g) s c = handleBlob cfg s c := by
    obtain ⟨p, e⟩ := c
    simp only at hq
    subst hq
    rw [dispatch_other rfl (fun h => by cases h) rfl]
    rfl
  rw [hd]
  exact blob_token hlt hq h ht

/-! ### C59: tags -/

/-- C59: where a tag is expected, the next token is the string or word that is written there, or an empty
error token. -/
theorem C59_tag (k : TK) (r : List UInt8) (h : TagAt s.rest k r) :
    ∃ x t text, peekTokenTag cfg s = .ok (x, t) ∧ s.rest = text ++ r ∧ x.kind = k ∧ x.text = text ∧ x.after = r := by
  obtain ⟨text, ht⟩ := h.suffix
  have h1 : wp (fun _ => False) (peekTokenTag cfg) s (fun x _ => x.kind = k ∧ x.text = text ∧ x.after = r) := by
    unfold peekTokenTag
    exact wp_mark1 (wp_call (tag_token (wf_of_eof s h0) h ht) (fun _ h => h) fun x t hx => wp_bind (wp_seek (wp_pure hx)))
  unfold wp at h1
  cases hp : peekTokenTag cfg s with
  | error e => rw [hp] at h1; exact absurd h1 id
  | ok x =>
    rw [hp] at h1
    exact ⟨x.1, x.2, text, rfl, ht, h1⟩

/-! ### C60: names of files -/

/-- C60: where the name of a file is expected, the next token is what is written there up to the first
character that can not be in it; brackets in it are balanced. -/
theorem C60_file (k : TK) (r : List UInt8) (h : FileAt s.rest k r) :
    ∃ x t text, peekTokenFile cfg s = .ok (x, t) ∧ s.rest = text ++ r ∧ x.kind = k ∧ x.text = text ∧ x.after = r := by
  obtain ⟨text, ht⟩ := h.suffix
  have h1 : wp (fun _ => False) (peekTokenFile cfg) s (fun x _ => x.kind = k ∧ x.text = text ∧ x.after = r) := by
    unfold peekTokenFile
    exact wp_mark1 (wp_call (file_token (wf_of_eof s h0) h ht) (fun _ h => h) fun x t hx => wp_bind (wp_seek (wp_pure hx)))
  unfold wp at h1
  cases hp : peekTokenFile cfg s with
  | error e => rw [hp] at h1; exact absurd h1 id
  | ok x =>
    rw [hp] at h1
    exact ⟨x.1, x.2, text, rfl, ht, h1⟩

/-! ### C61: backslashes that start no escape -/

/-- C61: a backslash that starts no escape is an error, together with what looks like the rest of an escape
behind it. -/
theorem C61_malformed (c : WLC) (q r : List UInt8) (hc : NextChar s.rest c q) (hq : c.point = ch '\\') (h : MalformedEnd q r) :
    ∃ text, s.rest = text ++ r ∧ NextWith cfg pol g s .Error_UnhandledCharacter text r := by
  obtain ⟨text, ht⟩ := suffix_trans hc.suffix h.suffix
  refine ⟨text, ht, next_of_gives (nextToken_char (wf_of_eof s h0) hc fun t hlt => ?_)⟩
  have hd : dispatch cfg (polIn pol g) s c = handleBackslash cfg s c := by
    obtain ⟨p, e⟩ := c
    simp only at hq
    subst hq
    rfl
  rw [hd]
  exact malformed_token hlt hq h ht

end

/-! ### Examples -/

private abbrev b (x : String) : List UInt8 := bytes x.toList

/-- `\[Rule]` and `→` are the same operator, and a line continuation in front of it does not matter. -/
example : NextChar (b "\\[Rule]x") ⟨.char 0xf522, .longName⟩ (b "x") ∧ NextChar [0xef, 0x94, 0xa2] ⟨.char 0xf522, .none⟩ [] ∧
    NextChar (b "\\\n   \\[Rule]x") ⟨.char 0xf522, .longName⟩ (b "x") ∧ Lone (.char 0xf522) .LongName_Rule := by
  refine ⟨nextChar_run (by decide +kernel) rfl, nextChar_run (by decide +kernel) rfl, nextChar_run (by decide +kernel) rfl,
    .operator (name := "Rule".toList) (by decide +kernel) (by decide +kernel) (by decide +kernel)⟩

example : NextChar (b "\\@x") ⟨.char 0xf7c2, .single⟩ (b "x") ∧ Lone (.char 0xf7c2) .LinearSyntax_At :=
  ⟨nextChar_run (by decide +kernel) rfl, .linear (by decide +kernel)⟩

/-- The name `α1b`, with the letter written in three ways. -/
example : NameAt (b "\\[Alpha]1b[") .Symbol (b "[") ∧ NameAt (b "\\:03b11b[") .Symbol (b "[") ∧
    NameAt (0xce :: 0xb1 :: b "1b[") .Symbol (b "[") := by
  have hl : Letter (.char 0x3b1) := by
    have : (⟨.char 0x3b1, .none⟩ : WLC).isLetter = true := by decide +kernel
    exact letter_iff.mp this
  have hend : NameEnd (b "1b[") .Symbol (b "[") :=
    .stop (.char (nextChar_run (c := ⟨ch '1', .none⟩) (r := b "b[") (by decide +kernel) rfl) (.inr ⟨by decide, by decide⟩)
      (.char (nextChar_run (c := ⟨ch 'b', .none⟩) (r := b "[") (by decide +kernel) rfl) (.inl ((letter_iff (c := ⟨ch 'b', .none⟩)).mp (by decide +kernel)))
        (.stop (nextChar_run (c := ⟨ch '[', .none⟩) (r := []) (by decide +kernel) rfl)
          (fun h => absurd ((letter_iff (c := ⟨ch '[', .none⟩)).mpr h) (by decide +kernel)) (fun h => absurd h.2 (by decide))))) (by decide)
  exact ⟨.letter (nextChar_run (c := ⟨_, .longName⟩) (r := b "1b[") (by decide +kernel) rfl) hl hend,
    .letter (nextChar_run (c := ⟨_, .hex4⟩) (r := b "1b[") (by decide +kernel) rfl) hl hend,
    .letter (nextChar_run (c := ⟨_, .none⟩) (r := b "1b[") (by decide +kernel) rfl) hl hend⟩

/-- `\( \( \) \)`. -/
example : BlobEnd 0 (b "\\(\\)\\)x") .LinearSyntaxBlob (b "x") :=
  .up (nextChar_run (c := ⟨_, .single⟩) (r := b "\\)\\)x") (by decide +kernel) rfl) rfl
    (.down (nextChar_run (c := ⟨_, .single⟩) (r := b "\\)x") (by decide +kernel) rfl) rfl
      (.close (nextChar_run (c := ⟨_, .single⟩) (r := b "x") (by decide +kernel) rfl) rfl))

/-- A tag, and what is no tag. -/
example : TagAt (b "a;") .String (b ";") ∧ TagAt (b "5") .Error_ExpectedTag (b "5") := by
  refine ⟨.word (nextChar_run (c := ⟨ch 'a', .none⟩) (r := b ";") (by decide +kernel) rfl) ((letter_iff (c := ⟨ch 'a', .none⟩)).mp (by decide +kernel))
    (.stop (nextChar_run (c := ⟨ch ';', .none⟩) (r := []) (by decide +kernel) rfl)
      (fun h => absurd ((letter_iff (c := ⟨ch ';', .none⟩)).mpr h) (by decide +kernel)) (fun h => absurd h.2 (by decide))) (by decide),
    .none (nextChar_run (c := ⟨ch '5', .none⟩) (r := []) (by decide +kernel) rfl)
      (fun h => absurd ((letter_iff (c := ⟨ch '5', .none⟩)).mpr h) (by decide +kernel)) (by decide)⟩

/-- `dir/a[1].m` is the name of a file; `a[1 ` is not. -/
example : FileAt (b "a[1];") .String (b ";") ∧ FileAt (b "a[1 ") .Error_UnterminatedFileString (b " ") := by
  have src : ∀ (x : Char) (r : List UInt8), x.toNat ≤ 0x7f → x ≠ '\r' → SourceAt (byte x :: r) (ch x) r := by
    intro x r hx hr
    obtain ⟨y, h1, h2⟩ := enc_ascii x.toNat hx
    have : y = x := Char.toNat_inj.mp h1
    subst this
    have h3 := SourceAt.plain (c := y) (r := r) (by omega) (fun h => absurd h hr)
    rw [h2] at h3
    exact h3
  have h1 := src 'a' (b "[1];") (by decide) (by decide)
  have h2 := src '[' (b "1];") (by decide) (by decide)
  have h3 := src '1' (b "];") (by decide) (by decide)
  have h4 := src ']' (b ";") (by decide) (by decide)
  have h5 := src ';' [] (by decide) (by decide)
  have g1 := src 'a' (b "[1 ") (by decide) (by decide)
  have g2 := src '[' (b "1 ") (by decide) (by decide)
  have g3 := src '1' (b " ") (by decide) (by decide)
  have g4 := src ' ' [] (by decide) (by decide)
  have nb : ¬ FileBreak (ch '1') := by
    rw [fileBreak_iff]
    rintro (h | h | h)
    · exact absurd h (by decide)
    · cases h
    · exact absurd h (by decide +kernel)
  exact ⟨.name (ok := true) h1 (.inl (fileChar_iff.mp (by decide)))
      (.brackets h2 (.other h3 (by decide) (by decide) nb (.close h4))
        (.stop h5 (fun h => absurd (fileChar_iff.mpr h) (by decide)) (by decide))),
    .name (ok := false) g1 (.inl (fileChar_iff.mp (by decide)))
      (.broken g2 (.other g3 (by decide) (by decide) nb (.broken g4 (.inl (.inl rfl)))))⟩

/-- `\[Foo]` is one error token. -/
example : NextChar (b "\\[Fo]x") ⟨ch '\\', .none⟩ (b "[Fo]x") ∧ MalformedEnd (b "[Fo]x") (b "x") :=
  ⟨nextChar_run (by decide +kernel) rfl,
    .name (nextChar_run (c := ⟨ch '[', .none⟩) (r := b "Fo]x") (by decide +kernel) rfl) rfl
      (nextChar_run (c := ⟨ch 'F', .none⟩) (r := b "o]x") (by decide +kernel) rfl) (upper_iff.mp (by decide))
      (.char (nextChar_run (c := ⟨ch 'o', .none⟩) (r := b "]x") (by decide +kernel) rfl) (alnum_iff.mp (by decide))
        (.close (nextChar_run (c := ⟨ch ']', .none⟩) (r := b "x") (by decide +kernel) rfl) rfl))⟩

end CodeParser.Props
