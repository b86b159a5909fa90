import Verif.Proofs.Recover7
import Verif.Props.Parser
/-!
Properties C25, C44 and C19 for the entry points `tokenize` and `tokenize_bytes`.
-/
namespace CodeParser.Props
open CodeParser Spec

variable {cfg : Cfg} {conv : Conv} {first : FirstLine} {bs : List UInt8} {input : List Char} {e : Err}

/-- The error of rewriting a token, with line/column positions. -/
theorem fixTok_line {t : Tok} (hp : Placed cfg input (.lineCol 1 1) t) (hk : TokOK t) (hu : t.unterminated = true)
    (h : fixTok cfg (isStatement cfg) input t = .error e) : LineErr input e ∨ (e = .panic .recovery ∧ HasBlank input) := by
  have hkind := unterminated_kinds t.kind (by rw [← unterminated_kind]; exact hu)
  rcases fixTok_cases (isNew := isStatement cfg) hp (hk.solid hkind.1) (fun h => hkind.2 (hk.line h)) with
    ⟨e', l, h1, h2, h3, -⟩ | ⟨h1, h2, -⟩ | ⟨t', h1, -⟩
  · rw [h1] at h; cases h
    exact Or.inl (isStatement_split h2 h3)
  · rw [h1] at h; cases h
    exact Or.inr ⟨rfl, h2⟩
  · rw [h1] at h; cases h

/-- C19 for the entry point: tokenizing terminates. -/
theorem C19_tokenize_bytes (cfg : Cfg) (conv : Conv) (first : FirstLine) (bs : List UInt8) :
    tokenizeBytes cfg conv first bs ≠ .error .fuel := by
  intro h
  rcases tokenizeBytes_err h with ⟨h, -⟩ | ⟨input, t, rfl, h1, h2, h3, h4⟩
  · cases h
  · rcases fixTok_err h4 with h | ⟨l, h6, h7⟩
    · cases h
    · rcases isStatement_split h6 h7 with ⟨h, -⟩ | ⟨h, -⟩ <;> cases h

/-- C25: tokenizing a text gives tokens unless the text contains an escaped surrogate, a byte
order mark or a blank line (positions given by line and column).  (What is missing: those
texts, and positions given by character index, see `C25_violated`.) -/
theorem C25_no_panic_partial (h1 : ¬ HasSurrogateEscape (encode input)) (h2 : BOM ∉ input) (h3 : ¬ HasBlank input) :
    ∃ ts, tokenize cfg .lineColumn first input = .ok ts := by
  have key : ∀ e, tokenizeBytes cfg .lineColumn first (encode input) ≠ .error e := by
    intro e h
    rcases tokenizeBytes_err h with ⟨-, h⟩ | ⟨input', t, hi, h4, h5, h6, h7⟩
    · exact h1 h
    · cases encode_injective _ _ hi
      rcases fixTok_line h4 h5 h6 h7 with (⟨-, h⟩ | ⟨-, h⟩) | ⟨-, h⟩
      · exact h1 h
      · exact h2 h
      · exact h3 h
  have flag : ∀ ts t, tokens cfg .lineColumn first (encode input) = .ok (ts, t) → t.flag = none := by
    intro ts t h
    cases hf : t.flag with
    | none => rfl
    | some f =>
      have := (C44_encoding_error cfg .lineColumn first (encode input) ts t h).mp (by rw [hf]; simp)
      rcases this with h | ⟨cs, e1, e2⟩
      · exact absurd ⟨input, rfl⟩ h
      · exact absurd (encode_injective _ _ e1 ▸ e2) h2
  unfold tokenize tokenizeWith
  have he : encode input = input.flatMap String.utf8EncodeChar := rfl
  rw [← he]
  cases hr : tokenizeBytesWith (isStatement cfg) cfg .lineColumn first (encode input) with
  | error e => exact absurd hr (key e)
  | ok q =>
    cases q with
    | ok ts => exact ⟨ts, rfl⟩
    | error f =>
      exfalso
      unfold tokenizeBytesWith at hr
      cases hT : tokens cfg .lineColumn first (encode input) with
      | error e => rw [hT] at hr; cases hr
      | ok p =>
        obtain ⟨ts, t⟩ := p
        rw [hT] at hr
        simp only [flag ts t hT] at hr
        split at hr
        · cases hr
        · split at hr <;> cases hr

/-- The hypotheses are met by an unterminated comment over several lines. -/
example : ¬ HasBlank ['a','\n','(','*','b','\n','c'] ∧
    (match tokenize Cfg.default .lineColumn .notScript ['a','\n','(','*','b','\n','c'] with
      | .ok ts => ts.map Tok.kind == [.Symbol, .ToplevelNewline, .Error_UnterminatedComment]
      | .error _ => false) = true := by
  refine ⟨?_, by decide +kernel⟩
  rintro ⟨l, h1, h2⟩
  revert l
  decide +kernel

/-- The panic tokenizing ends in. -/
def tokPanics (conv : Conv) (input : List Char) (site : Site) : Bool :=
  match tokenize Cfg.default conv .notScript input with
  | .error e => e == .panic site
  | .ok _ => false

theorem of_tokPanics {site : Site} (h : tokPanics conv input site = true) :
    tokenize Cfg.default conv .notScript input = .error (.panic site) := by
  unfold tokPanics at h
  cases hr : tokenize Cfg.default conv .notScript input with
  | error e => rw [hr] at h; simpa using h
  | ok r => rw [hr] at h; cases h

/-- C25 fails as stated: a byte order mark; an escaped surrogate; an unterminated string
followed by a blank line; and, with positions given by character index, a string
unterminated behind a character that is not ASCII. -/
theorem C25_violated :
    tokenize Cfg.default .lineColumn .notScript [Char.ofNat 0xFEFF] = .error (.panic .encoding) ∧
    tokenize Cfg.default .lineColumn .notScript ['\\', ':', 'd', '8', '0', '0'] = .error (.panic .surrogate) ∧
    tokenize Cfg.default .lineColumn .notScript ['"', '\n', '\n'] = .error (.panic .recovery) ∧
    tokenize Cfg.default .characterIndex .notScript ['é', '"'] = .error (.panic .recovery) :=
  ⟨of_tokPanics (by decide +kernel), of_tokPanics (by decide +kernel), of_tokPanics (by decide +kernel),
    of_tokPanics (by decide +kernel)⟩

/-- C44 for the entry point: `tokenize_bytes` reports an encoding error only for bytes that
are not UTF-8 or contain a byte order mark, and always for those, unless it panics. -/
theorem C44_tokenize_bytes {q : Except Unsafe (List Tok)} (h : tokenizeBytes cfg conv first bs = .ok q) :
    (∃ f, q = .error f) ↔ ¬ ValidUTF8 bs ∨ ∃ cs, bs = encode cs ∧ BOM ∈ cs := by
  unfold tokenizeBytes tokenizeBytesWith at h
  cases hT : tokens cfg conv first bs with
  | error e => rw [hT] at h; cases h
  | ok p =>
    obtain ⟨ts, t⟩ := p
    rw [hT] at h
    simp only at h
    have := C44_encoding_error cfg conv first bs ts t hT
    cases hf : t.flag with
    | some f =>
      rw [hf] at h this
      cases h
      exact ⟨fun _ => this.mp (by simp), fun _ => ⟨f, rfl⟩⟩
    | none =>
      rw [hf] at h this
      refine ⟨fun ⟨f, hq⟩ => ?_, fun hh => absurd (this.mpr hh) (by simp)⟩
      subst hq
      simp only at h
      split at h
      · cases h
      · split at h <;> cases h

/-- C44 for the parser: the result of `parse_bytes_cst_seq` is marked as having an encoding
error exactly when its input is not UTF-8 or contains a byte order mark. -/
theorem C44_parse {r : ParseResult} (h : parseBytesCst cfg conv first bs = .ok r) :
    r.unsafeEncoding ≠ none ↔ ¬ ValidUTF8 bs ∨ ∃ cs, bs = encode cs ∧ BOM ∈ cs := by
  obtain ⟨cs, f, ks, u, s, o⟩ := parse_ok h
  have hp := doParse_wp (U := realSetup cfg conv bs) (conv := conv) (f := first) (bs := bs) rfl
  rw [show (realSetup cfg conv bs).env = ⟨cfg, recoverGroup cfg bs⟩ from rfl, o.run] at hp
  obtain ⟨u', -, -, hP⟩ := hp
  obtain ⟨v, hR, hr, hf⟩ := hP.done
  rw [o.flag, ← hf]
  exact R.flag_iff hR hr

end CodeParser.Props
