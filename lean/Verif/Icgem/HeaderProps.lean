import Verif.Icgem.Model
import Verif.Icgem.DataProps
import Verif.Rinex.StreamLemmas
import Verif.SpaceWeather.Lemmas

/-! C32: the header. -/
namespace Verif.Icgem

open Verif.Rinex Verif.Text

/-! ### Specification -/

/-- Lines of a header: keyword, at least one blank, argument (`key`), or anything else. -/
inductive Ent where
  | key (lead : Nat) (k : Key) (gap : Nat) (arg : List Char)
  | other (text : List Char)
deriving DecidableEq, Repr

def Ent.text : Ent → List Char
  | .key lead k gap arg =>
    List.replicate lead ' ' ++ (k.name ++ (List.replicate (gap + 1) ' ' ++ arg))
  | .other t => t

def Ent.line (e : Ent) : Line := ⟨e.text, true⟩

/-- Room for the argument of a text keyword, terminator included. -/
def Key.room : Key → Nat
  | .modelname => 128
  | _ => 64

/-- What an argument has to look like: text without blanks that fits, or a number other than 0. -/
def ArgOk (strtod : Strtod) (k : Key) (arg : List Char) : Prop :=
  match k with
  | .gm | .radius => arg.head? ≠ some ' ' ∧ ∃ x r, strtod arg = some (x, r) ∧ x ≠ 0
  | .maxDegree => arg.head? ≠ some ' ' ∧ ∃ r, strtol arg = some r ∧ toInt32 r.value ≠ 0
  | k => ' ' ∉ arg ∧ arg.length + 1 < k.room

/-- Lines that can be read: they fit the buffer and hold no NUL; the others do not begin with a
keyword. -/
def Ent.Ok (strtod : Strtod) (e : Ent) : Prop :=
  e.text.length ≤ 255 ∧ '\x00' ∉ e.text ∧
  match e with
  | .key _ k _ arg => ArgOk strtod k arg
  | .other t => ¬ "end_of_head".toList <+: t ∧ ∀ k : Key, ¬ k.name <+: t.dropWhile (· == ' ')

/-- The argument of the last line with this keyword. -/
def lastArg (k : Key) : List Ent → Option (List Char)
  | [] => none
  | e :: es =>
    match lastArg k es with
    | some a => some a
    | none =>
      match e with
      | .key _ k' _ arg => if k' = k then some arg else none
      | .other _ => none

/-- The text a member holds. -/
def textOf (h : Hdr) : Key → List Char
  | .productType => cstr h.productType 0
  | .modelname => cstr h.modelname 0
  | .tideSystem => cstr h.tideSystem 0
  | .norm => cstr h.norm 0
  | .errors => cstr h.errors 0
  | _ => []

def Key.isText : Key → Bool
  | .gm | .radius | .maxDegree => false
  | _ => true

/-- Members agree with the lines `es`, read on top of the members `h0`. -/
structure Agrees (strtod : Strtod) (h0 h : Hdr) (es : List Ent) : Prop where
  text : ∀ k : Key, k.isText → textOf h k = (lastArg k es).getD (textOf h0 k)
  gm : h.gm = match lastArg .gm es with
    | none => h0.gm
    | some a => ((strtod a).map (·.1)).getD 0
  radius : h.radius = match lastArg .radius es with
    | none => h0.radius
    | some a => ((strtod a).map (·.1)).getD 0
  maxDegree : h.maxDegree = match lastArg .maxDegree es with
    | none => h0.maxDegree
    | some a => ((strtol a).map (toInt32 ·.value)).getD 0

/-! ### Lemmas -/

theorem strncmpEq_prefix (p : List Char) (hp : '\x00' ∉ p) :
    ∀ a : List Char, strncmpEq p.length a p = true ↔ p <+: a := by
  induction p with
  | nil => intro a; simp [strncmpEq]
  | cons x p ih =>
    intro a
    have hx : x ≠ '\x00' := fun h => hp (by simp [h])
    have hp' : '\x00' ∉ p := fun h => hp (by simp [h])
    cases a with
    | nil =>
      simp [strncmpEq, hx.symm]
    | cons y a =>
      simp only [List.length_cons, strncmpEq, List.headD_cons, List.tail_cons, List.cons_prefix_cons]
      by_cases hxy : y = x
      · subst hxy
        simp [hx, ih hp' a]
      · simp [hxy, Ne.symm hxy]

theorem Key.name_nul (k : Key) : '\x00' ∉ k.name := by cases k <;> decide

theorem Key.mem_all (k : Key) : k ∈ Key.all := by cases k <;> decide

theorem Key.not_prefix (k k' : Key) (h : k ≠ k') : ¬ k.name <+: k'.name := by
  revert h; cases k <;> cases k' <;> decide

/-- At most one keyword begins a line. -/
theorem Key.unique {k k' : Key} {t : List Char} (h : k.name <+: t) (h' : k'.name <+: t) : k = k' := by
  by_contra hne
  rcases List.prefix_or_prefix_of_prefix h h' with hp | hp
  · exact Key.not_prefix _ _ hne hp
  · exact Key.not_prefix _ _ (Ne.symm hne) hp

theorem onLine_none (strtod : Strtod) (line : List Char) (ks : List Key) (h : Hdr) (e : Nat)
    (hn : ∀ k ∈ ks, ¬ k.name <+: line) : onLine strtod line ks h e = .ok h e := by
  induction ks with
  | nil => rfl
  | cons k ks ih =>
    have := hn k (List.mem_cons_self ..)
    rw [← strncmpEq_prefix k.name k.name_nul line] at this
    simp only [onLine]
    rw [if_neg this]
    exact ih fun k' hk' => hn k' (List.mem_cons_of_mem _ hk')

theorem onLine_key (strtod : Strtod) (line : List Char) (k : Key) (arg : List Char) (h h' : Hdr)
    (e e' : Nat) (hk : k.name <+: line) (harg : argument k line = some arg)
    (hon : onKey strtod h e k arg = .ok h' e') (ks : List Key) (hin : k ∈ ks) (hnd : ks.Nodup) :
    onLine strtod line ks h e = .ok h' e' := by
  induction ks with
  | nil => simp at hin
  | cons k' ks ih =>
    have hnd' := List.nodup_cons.1 hnd
    by_cases heq : k = k'
    · subst heq
      simp only [onLine]
      rw [if_pos ((strncmpEq_prefix k.name k.name_nul line).2 hk), harg]
      simp only [hon]
      exact onLine_none strtod line ks h' e' fun k' hk' hp =>
        hnd'.1 (Key.unique hk hp ▸ hk')
    · have : ¬ strncmpEq k'.name.length line k'.name = true := by
        rw [strncmpEq_prefix k'.name k'.name_nul line]
        exact fun hp => heq (Key.unique hk hp)
      simp only [onLine]
      rw [if_neg this]
      refine ih ?_ hnd'.2
      rcases List.mem_cons.1 hin with hm | hm
      · exact absurd hm heq
      · exact hm

theorem dropWhile_replicate (n : Nat) (t : List Char) (h : t.head? ≠ some ' ') :
    (List.replicate n ' ' ++ t).dropWhile (· == ' ') = t := by
  induction n with
  | zero =>
    cases t with
    | nil => rfl
    | cons c t =>
      have : c ≠ ' ' := fun hc => h (by simp [hc])
      simp [this]
  | succ n ih => simpa [List.replicate_succ] using ih

theorem Key.name_head (k : Key) (t : List Char) : (k.name ++ t).head? ≠ some ' ' := by
  have h1 : k.name.head? ≠ some ' ' := by cases k <;> decide
  have h2 : k.name ≠ [] := by cases k <;> decide
  cases hk : k.name with
  | nil => exact absurd hk h2
  | cons c u =>
    rw [hk] at h1
    exact h1

/-- Lengths of the text members. -/
structure Sized (h : Hdr) : Prop where
  productType : h.productType.length = 64
  modelname : h.modelname.length = 128
  tideSystem : h.tideSystem.length = 64
  norm : h.norm.length = 64
  errors : h.errors.length = 64

theorem takeWhile_full (arg : List Char) (h : ' ' ∉ arg) : arg.takeWhile (· != ' ') = arg := by
  induction arg with
  | nil => rfl
  | cons c arg ih =>
    have hc : c ≠ ' ' := fun he => h (by simp [he])
    have hr : ' ' ∉ arg := fun hm => h (by simp [hm])
    simp [hc, ih hr]

theorem copyWord_eq (dst : Buf) (arg : List Char) (h : ' ' ∉ arg) :
    copyWord dst arg = arg ++ '\x00' :: dst.drop (arg.length + 1) := by
  simp only [copyWord, takeWhile_full arg h]
  simp

theorem copyWord_length (dst : Buf) (arg : List Char) (h : ' ' ∉ arg)
    (hl : arg.length + 1 < dst.length) : (copyWord dst arg).length = dst.length := by
  rw [copyWord_eq dst arg h]
  simp only [List.length_append, List.length_cons, List.length_drop]
  omega

theorem cstr_copyWord (dst : Buf) (arg : List Char) (h : ' ' ∉ arg) (h0 : '\x00' ∉ arg) :
    cstr (copyWord dst arg) 0 = arg := by
  rw [copyWord_eq dst arg h]
  exact SpaceWeather.takeWhile_nul arg _ h0


/-- What one keyword line does to the members. -/
theorem onKey_ok (strtod : Strtod) (h : Hdr) (hs : Sized h) (k : Key) (arg : List Char) (lead gap : Nat)
    (ha : ArgOk strtod k arg) (h0 : '\x00' ∉ arg) :
    ∃ h', onKey strtod h 0 k arg = .ok h' 0 ∧ Sized h' ∧
      Agrees strtod h h' [.key lead k gap arg] := by
  cases k
  case gm =>
    obtain ⟨-, x, r, hx, hx0⟩ := ha
    refine ⟨{ h with gm := x }, by simp [onKey, hx, hx0], ⟨hs.1, hs.2, hs.3, hs.4, hs.5⟩, ?_⟩
    refine ⟨?_, by simp [lastArg, hx], by simp [lastArg], by simp [lastArg]⟩
    intro k hk
    cases k <;> simp_all [lastArg, textOf, Key.isText]
  case radius =>
    obtain ⟨-, x, r, hx, hx0⟩ := ha
    refine ⟨{ h with radius := x }, by simp [onKey, hx, hx0], ⟨hs.1, hs.2, hs.3, hs.4, hs.5⟩, ?_⟩
    refine ⟨?_, by simp [lastArg], by simp [lastArg, hx], by simp [lastArg]⟩
    intro k hk
    cases k <;> simp_all [lastArg, textOf, Key.isText]
  case maxDegree =>
    obtain ⟨-, r, hx, hx0⟩ := ha
    refine ⟨{ h with maxDegree := toInt32 r.value }, by simp [onKey, hx, hx0],
      ⟨hs.1, hs.2, hs.3, hs.4, hs.5⟩, ?_⟩
    refine ⟨?_, by simp [lastArg], by simp [lastArg], by simp [lastArg, hx]⟩
    intro k hk
    cases k <;> simp_all [lastArg, textOf, Key.isText]
  all_goals
    obtain ⟨hsp, hlen⟩ := ha
    simp only [Key.room] at hlen
  case productType =>
    have hl : arg.length + 1 < h.productType.length := by rw [hs.1]; exact hlen
    refine ⟨{ h with productType := copyWord h.productType arg },
      by simp [onKey, storeText, takeWhile_full arg hsp, hl], ⟨?_, hs.2, hs.3, hs.4, hs.5⟩, ?_⟩
    · simp only [copyWord_length _ _ hsp hl, hs.1]
    · refine ⟨?_, by simp [lastArg], by simp [lastArg], by simp [lastArg]⟩
      intro k hk
      cases k <;> simp_all [lastArg, textOf, Key.isText, cstr_copyWord _ _ hsp h0]
  case modelname =>
    have hl : arg.length + 1 < h.modelname.length := by rw [hs.2]; exact hlen
    refine ⟨{ h with modelname := copyWord h.modelname arg },
      by simp [onKey, storeText, takeWhile_full arg hsp, hl], ⟨hs.1, ?_, hs.3, hs.4, hs.5⟩, ?_⟩
    · simp only [copyWord_length _ _ hsp hl, hs.2]
    · refine ⟨?_, by simp [lastArg], by simp [lastArg], by simp [lastArg]⟩
      intro k hk
      cases k <;> simp_all [lastArg, textOf, Key.isText, cstr_copyWord _ _ hsp h0]
  case errors =>
    have hl : arg.length + 1 < h.errors.length := by rw [hs.5]; exact hlen
    refine ⟨{ h with errors := copyWord h.errors arg },
      by simp [onKey, storeText, takeWhile_full arg hsp, hl], ⟨hs.1, hs.2, hs.3, hs.4, ?_⟩, ?_⟩
    · simp only [copyWord_length _ _ hsp hl, hs.5]
    · refine ⟨?_, by simp [lastArg], by simp [lastArg], by simp [lastArg]⟩
      intro k hk
      cases k <;> simp_all [lastArg, textOf, Key.isText, cstr_copyWord _ _ hsp h0]
  case tideSystem =>
    have hl : arg.length + 1 < h.tideSystem.length := by rw [hs.3]; exact hlen
    refine ⟨{ h with tideSystem := copyWord h.tideSystem arg },
      by simp [onKey, storeText, takeWhile_full arg hsp, hl], ⟨hs.1, hs.2, ?_, hs.4, hs.5⟩, ?_⟩
    · simp only [copyWord_length _ _ hsp hl, hs.3]
    · refine ⟨?_, by simp [lastArg], by simp [lastArg], by simp [lastArg]⟩
      intro k hk
      cases k <;> simp_all [lastArg, textOf, Key.isText, cstr_copyWord _ _ hsp h0]
  case norm =>
    have hl : arg.length + 1 < h.norm.length := by rw [hs.4]; exact hlen
    refine ⟨{ h with norm := copyWord h.norm arg },
      by simp [onKey, storeText, takeWhile_full arg hsp, hl], ⟨hs.1, hs.2, hs.3, ?_, hs.5⟩, ?_⟩
    · simp only [copyWord_length _ _ hsp hl, hs.4]
    · refine ⟨?_, by simp [lastArg], by simp [lastArg], by simp [lastArg]⟩
      intro k hk
      cases k <;> simp_all [lastArg, textOf, Key.isText, cstr_copyWord _ _ hsp h0]

theorem ArgOk.head {strtod : Strtod} {k : Key} {arg : List Char} (h : ArgOk strtod k arg) :
    arg.head? ≠ some ' ' := by
  have aux : ' ' ∉ arg → arg.head? ≠ some ' ' := fun hn he => hn (List.mem_of_mem_head? he)
  cases k <;> first | exact h.1 | exact aux h.1

theorem argument_eq (k : Key) (gap : Nat) (arg : List Char) (ha : arg.head? ≠ some ' ') :
    argument k (k.name ++ (List.replicate (gap + 1) ' ' ++ arg)) = some arg := by
  unfold argument
  rw [if_neg (by simp only [List.length_append, List.length_replicate]; omega)]
  have : (k.name ++ (List.replicate (gap + 1) ' ' ++ arg)).drop (k.name.length + 1) =
      List.replicate gap ' ' ++ arg := by
    rw [List.drop_append, List.drop_of_length_le (by omega)]
    simp [List.replicate_succ]
  rw [this, dropWhile_replicate gap arg ha]

theorem onLine_ok (strtod : Strtod) (h : Hdr) (hs : Sized h) (e : Ent) (he : e.Ok strtod) :
    ∃ h', onLine strtod (e.text.dropWhile (· == ' ')) Key.all h 0 = .ok h' 0 ∧ Sized h' ∧
      Agrees strtod h h' [e] := by
  cases e with
  | other t =>
    refine ⟨h, onLine_none strtod _ Key.all h 0 fun k _ => he.2.2.2 k, hs, ?_⟩
    exact ⟨fun k _ => by simp [lastArg], by simp [lastArg], by simp [lastArg], by simp [lastArg]⟩
  | key lead k gap arg =>
    have hok : ArgOk strtod k arg := he.2.2
    have hnul : '\x00' ∉ arg := fun hm => he.2.1 (by simp [Ent.text, hm])
    obtain ⟨h', h1, h2, h3⟩ := onKey_ok strtod h hs k arg lead gap hok hnul
    refine ⟨h', ?_, h2, h3⟩
    rw [Ent.text, dropWhile_replicate lead _ (Key.name_head k _)]
    exact onLine_key strtod _ k arg h h' 0 0 (List.prefix_append _ _)
      (argument_eq k gap arg hok.head) h1 Key.all (Key.mem_all k) (by decide)

theorem not_end (strtod : Strtod) (e : Ent) (he : e.Ok strtod) :
    ¬ "end_of_head".toList <+: e.text := by
  cases e with
  | other t => exact he.2.2.1
  | key lead k gap arg =>
    cases lead with
    | succ n =>
      intro hp
      simp only [Ent.text, List.replicate_succ, List.cons_append] at hp
      have := hp.getElem (i := 0) (by simp)
      simp at this
    | zero =>
      intro hp
      simp only [Ent.text, List.replicate_zero, List.nil_append] at hp
      have h2 : k.name <+: k.name ++ (List.replicate (gap + 1) ' ' ++ arg) := List.prefix_append _ _
      rcases List.prefix_or_prefix_of_prefix hp h2 with hx | hx
      · revert hx; cases k <;> decide
      · revert hx; cases k <;> decide

theorem agrees_cons {strtod : Strtod} {h0 h1 h2 : Hdr} {e : Ent} {es : List Ent}
    (ha : Agrees strtod h0 h1 [e]) (hb : Agrees strtod h1 h2 es) : Agrees strtod h0 h2 (e :: es) := by
  have hcons : ∀ k : Key, lastArg k (e :: es) =
      match lastArg k es with | some a => some a | none => lastArg k [e] := by
    intro k; simp only [lastArg]
  refine ⟨?_, ?_, ?_, ?_⟩
  · intro k hk
    rw [hb.text k hk, hcons k, ha.text k hk]
    cases lastArg k es <;> rfl
  · rw [hb.gm, hcons, ha.gm]; cases lastArg .gm es <;> rfl
  · rw [hb.radius, hcons, ha.radius]; cases lastArg .radius es <;> rfl
  · rw [hb.maxDegree, hcons, ha.maxDegree]; cases lastArg .maxDegree es <;> rfl

theorem headerLoop_end (strtod : Strtod) (n : Nat) (s : Stream) (b : Buf) (h : Hdr)
    (he : "end_of_head".toList <+: cstr b 0) : headerLoop strtod n s b h = .ret 0 h s := by
  unfold headerLoop
  exact if_pos ((strncmpEq_prefix "end_of_head".toList (by decide) _).2 he)

theorem headerLoop_step (strtod : Strtod) (n : Nat) (s : Stream) (b : Buf) (h h' : Hdr) (t : List Char)
    (hb : cstr b 0 = t) (he : ¬ "end_of_head".toList <+: t)
    (hon : onLine strtod (t.dropWhile (· == ' ')) Key.all h 0 = .ok h' 0) :
    headerLoop strtod (n + 1) s b h =
      headerLoop strtod n (getline 256 s b).1 (getline 256 s b).2 h' := by
  rw [headerLoop, hb]
  have : ¬ strncmpEq 11 t "end_of_head".toList = true := fun hc =>
    he ((strncmpEq_prefix "end_of_head".toList (by decide) t).1 hc)
  simp only [this]
  rw [hon]
  rfl

theorem headerLoop_ok (strtod : Strtod) (fin : List Char) (rest : List Line)
    (hf : "end_of_head".toList <+: fin) (hfl : fin.length ≤ 255) (hf0 : '\x00' ∉ fin) :
    ∀ (es : List Ent) (n : Nat) (lines : List Line) (b : Buf) (h : Hdr), es.length ≤ n →
      (∀ e ∈ es, e.Ok strtod) → Sized h →
      lines = es.map Ent.line ++ ⟨fin, true⟩ :: rest →
      ∃ h' s, headerLoop strtod n (getline 256 (Stream.open lines) b).1
          (getline 256 (Stream.open lines) b).2 h = .ret 0 h' s ∧ s = Stream.open rest ∧
        Agrees strtod h h' es := by
  intro es
  induction es with
  | nil =>
    intro n lines b h _ _ _ hl
    simp only [List.map_nil, List.nil_append] at hl
    have hg := getline_good (cap := 256) (s := Stream.open lines) b rfl (by rw [Stream.open, hl]) hfl
    rw [hg]
    refine ⟨h, _, ?_, rfl, ⟨fun k _ => by simp [lastArg], rfl, rfl, rfl⟩⟩
    exact headerLoop_end strtod n _ _ h (by rw [SpaceWeather.cstr_fill b fin hf0]; exact hf)
  | cons e es ih =>
    intro n lines b h hn hok hs hl
    obtain ⟨n, rfl⟩ : ∃ k, n = k + 1 := ⟨n - 1, by simp only [List.length_cons] at hn; omega⟩
    have he := hok e (List.mem_cons_self ..)
    have hg := getline_good (cap := 256) (s := Stream.open lines) b rfl
      (l := e.line) (rest := es.map Ent.line ++ ⟨fin, true⟩ :: rest)
      (by rw [Stream.open, hl]; rfl) he.1
    obtain ⟨h1, hon, hs1, ha1⟩ := onLine_ok strtod h hs e he
    obtain ⟨h2, s, hrun, hsd, ha2⟩ := ih n _ (fill b e.text) h1
      (by simp only [List.length_cons] at hn; omega)
      (fun e' he' => hok e' (List.mem_cons_of_mem _ he')) hs1 rfl
    refine ⟨h2, s, ?_, hsd, agrees_cons ha1 ha2⟩
    rw [hg]
    exact (headerLoop_step strtod n _ _ h h1 e.text (SpaceWeather.cstr_fill b e.text he.2.1)
      (not_end strtod e he) hon).trans hrun

/-! ### C32 -/

/-- **C32 (a)** A header of at most 1000 lines in any order — keyword lines with proper arguments
and lines that are not keywords — followed by an `end_of_head` line is read successfully; every
member then holds the argument of the last line with its keyword, or its default when there is
none, and the data section begins on the next line.

Partial: an argument followed by a blank is stored with that blank (below). -/
theorem header_members_partial (strtod : Strtod) (es : List Ent) (fin : List Char) (rest : List Line) (b : Buf)
    (hlen : es.length ≤ 1000) (hok : ∀ e ∈ es, e.Ok strtod)
    (hf : "end_of_head".toList <+: fin) (hfl : fin.length ≤ 255) (hf0 : '\x00' ∉ fin) :
    ∃ h, parseHeader strtod (some (es.map Ent.line ++ ⟨fin, true⟩ :: rest)) b =
        .ret 0 h (Stream.open rest) ∧ Agrees strtod Hdr.init h es := by
  obtain ⟨h, s, h1, rfl, h2⟩ := headerLoop_ok strtod fin rest hf hfl hf0 es 1000 _ b Hdr.init hlen hok
    ⟨by decide, by decide, by decide, by decide, by decide⟩ rfl
  exact ⟨h, h1, h2⟩

/-- **C32 (b)** The coefficients count as normalised exactly when there is no `norm` keyword, or its
(last) argument is `fully_normalized`.  Partial as (a). -/
theorem header_normalized_partial (strtod : Strtod) (es : List Ent) (fin : List Char) (rest : List Line)
    (b : Buf) (hlen : es.length ≤ 1000) (hok : ∀ e ∈ es, e.Ok strtod)
    (hf : "end_of_head".toList <+: fin) (hfl : fin.length ≤ 255) (hf0 : '\x00' ∉ fin) :
    ∃ h, parseHeader strtod (some (es.map Ent.line ++ ⟨fin, true⟩ :: rest)) b =
        .ret 0 h (Stream.open rest) ∧
      (h.isNormalized = true ↔
        lastArg .norm es = none ∨ lastArg .norm es = some "fully_normalized".toList) := by
  obtain ⟨h, h1, h2⟩ := header_members_partial strtod es fin rest b hlen hok hf hfl hf0
  refine ⟨h, h1, ?_⟩
  have ht := h2.text .norm rfl
  simp only [Hdr.isNormalized, beq_iff_eq]
  rw [show cstr h.norm 0 = textOf h .norm from rfl, ht]
  cases hl : lastArg .norm es with
  | none => simp only [Option.getD_none, true_or, iff_true]; decide
  | some a => simp

/-- **C32 (c)** `parse_header` ends on every file (the function is total; the loop is bounded by
the counter of header lines), and it never reports success unless some line that was read begins with
`end_of_head`. -/
theorem header_success_end (strtod : Strtod) (lines : List Line) (b : Buf)
    (h : Hdr) (s : Stream) (hret : parseHeader strtod (some lines) b = .ret 0 h s) :
    ∃ l ∈ lines, "end_of_head".toList <+: l.text := by
  have hcl : ∀ (b : Buf) (t : List Char), "end_of_head".toList <+: cstr (fill b t) 0 →
      t ≠ [] → "end_of_head".toList <+: t := by
    intro b t hp _
    by_cases h0 : '\x00' ∈ t
    · obtain ⟨u, v, rfl, hu⟩ : ∃ u v, t = u ++ '\x00' :: v ∧ '\x00' ∉ u := List.eq_append_cons_of_mem h0
      have : cstr (fill b (u ++ '\x00' :: v)) 0 = u := by
        have := SpaceWeather.takeWhile_nul u (v ++ '\x00' :: b.drop ((u ++ '\x00' :: v).length + 1)) hu
        simpa [cstr, fill] using this
      rw [this] at hp
      exact hp.trans (List.prefix_append _ _)
    · rwa [SpaceWeather.cstr_fill b t h0] at hp
  have hnil : ∀ b : Buf, ¬ "end_of_head".toList <+: cstr (fill b []) 0 := by
    intro b
    rw [SpaceWeather.cstr_fill b [] (by simp)]
    decide
  -- what the buffer may hold
  have hbuf : ∀ (s : Stream) (b : Buf),
      "end_of_head".toList <+: cstr (getline 256 s b).2 0 → ∃ l ∈ s.lines, "end_of_head".toList <+: l.text := by
    intro s b hp
    unfold getline at hp
    split at hp
    · exact absurd hp (hnil b)
    · split at hp
      · exact absurd hp (hnil b)
      · rename_i l rest hl
        split at hp
        · refine ⟨l, by rw [hl]; exact List.mem_cons_self .., ?_⟩
          have hx : l.text.take 255 ≠ [] := by
            intro h0
            simp only [show (256 - 1 : Nat) = 255 from rfl, h0] at hp
            exact hnil b hp
          exact (hcl b _ hp hx).trans (List.take_prefix _ _)
        · refine ⟨l, by rw [hl]; exact List.mem_cons_self .., ?_⟩
          have hx : l.text ≠ [] := by
            intro h0
            simp only [h0] at hp
            exact hnil b hp
          exact hcl b _ hp hx
  have hsuf : ∀ (s : Stream) (b : Buf), s.good = true → 
      ∀ l ∈ (getline 256 s b).1.lines, (getline 256 s b).1.good = true → l ∈ s.lines := by
    intro s b hg l hl hg'
    unfold getline at hl hg'
    rw [if_neg (by simp [hg])] at hl hg'
    split at hl
    · rename_i h0; rw [h0] at hl; simp at hl
    · rename_i l0 rest h0
      simp only [h0] at hg'
      split at hl
      · rename_i hc
        rw [if_pos hc] at hg'
        simp [Stream.good] at hg'
      · rw [h0]; exact List.mem_cons_of_mem _ hl
  have hloop : ∀ (n : Nat) (s0 : Stream) (b0 : Buf) (h0 : Hdr),
      headerLoop strtod n s0 b0 h0 = .ret 0 h s →
      ("end_of_head".toList <+: cstr b0 0) ∨
        ∃ l ∈ s0.lines, s0.good = true ∧ "end_of_head".toList <+: l.text := by
    intro n
    induction n with
    | zero =>
      intro s0 b0 h0 hr
      unfold headerLoop at hr
      split at hr
      · rename_i hc
        exact .inl ((strncmpEq_prefix "end_of_head".toList (by decide) _).1 hc)
      · split at hr
        · cases hr
        · cases hr
        · simp only at hr
          split at hr
          · rename_i hne; cases hr; exact absurd rfl hne
          · cases hr
    | succ n ih =>
      intro s0 b0 h0 hr
      unfold headerLoop at hr
      split at hr
      · rename_i hc
        exact .inl ((strncmpEq_prefix "end_of_head".toList (by decide) _).1 hc)
      · split at hr
        · cases hr
        · cases hr
        · simp only at hr
          split at hr
          · rename_i hne; cases hr; exact absurd rfl hne
          · right
            by_cases hg : s0.good = true
            · rcases ih _ _ _ hr with hc | ⟨l, hl, hgl, hp⟩
              · obtain ⟨l, hl, hp⟩ := hbuf s0 b0 hc
                exact ⟨l, hl, hg, hp⟩
              · exact ⟨l, hsuf s0 b0 hg l hl hgl, hg, hp⟩
            · have hgf : s0.good = false := by simpa using hg
              rcases ih _ _ _ hr with hc | ⟨l, hl, hgl, hp⟩
              · rw [getline_bad b0 hgf] at hc
                exact absurd hc (hnil b0)
              · rw [getline_bad b0 hgf] at hgl
                simp [Stream.good] at hgl
  have hr : headerLoop strtod 1000 (getline 256 (Stream.open lines) b).1
      (getline 256 (Stream.open lines) b).2 Hdr.init = .ret 0 h s := hret
  rcases hloop _ _ _ _ hr with hc | ⟨l, hl, hg, hp⟩
  · exact hbuf (Stream.open lines) b hc
  · exact ⟨l, hsuf (Stream.open lines) b rfl l hl hg, hp⟩

/-! ### Concrete instances -/

def sampleHeader : List Ent :=
  [.other "a comment".toList, .key 2 .norm 3 "unnormalized".toList, .key 0 .radius 0 "7".toList,
   .key 0 .modelname 0 "EGM".toList, .key 0 .gm 1 "39".toList, .key 0 .maxDegree 5 "360".toList]

/-- The sample meets the hypotheses. -/
example : ∀ e ∈ sampleHeader, e.Ok intStrtod := by
  intro e he
  simp only [sampleHeader, List.mem_cons, List.not_mem_nil, or_false] at he
  rcases he with rfl | rfl | rfl | rfl | rfl | rfl
  · refine ⟨by decide, by decide, by decide, ?_⟩
    intro k; cases k <;> decide
  · exact ⟨by decide, by decide, by decide, by decide⟩
  · exact ⟨by decide, by decide, by decide, 7, [], by decide +kernel, by decide⟩
  · exact ⟨by decide, by decide, by decide, by decide⟩
  · exact ⟨by decide, by decide, by decide, 39, [], by decide +kernel, by decide⟩
  · exact ⟨by decide, by decide, by decide, ⟨360, [], false⟩, by decide +kernel, by decide +kernel⟩

/-- What is of interest of a result. -/
def hsummary : HOut → Option (Nat × List Char × Bool × Int)
  | .ret n h _ => some (n, textOf h .norm, h.isNormalized, h.maxDegree)
  | _ => none

example : hsummary (parseHeader intStrtod
    (some (sampleHeader.map Ent.line ++ [ln "end_of_head ==="])) (List.replicate 256 'x')) =
    some (0, "unnormalized".toList, false, 360) := by
  decide +kernel

/-- **C32, where it fails (1).**  When a blank follows the argument, it is stored with it and a
normalised model counts as not normalised. -/
theorem header_trailing_blank_counterexample :
    hsummary (parseHeader intStrtod (some [ln "norm fully_normalized ", ln "end_of_head"])
      (List.replicate 256 'x')) = some (0, "fully_normalized ".toList, false, 0) := by
  decide +kernel

/-- **C32, where it fails (2).**  A shorter argument followed by a blank keeps the tail of the old
contents of the member. -/
theorem header_leftover_counterexample :
    hsummary (parseHeader intStrtod (some [ln "norm no ", ln "end_of_head"])
      (List.replicate 256 'x')) = some (0, "no ly_normalized".toList, false, 0) := by
  decide +kernel

/-- **C32, where it fails (3).**  For a keyword at the very end of its line the argument is taken
from bytes behind the terminator. -/
theorem header_bare_keyword_counterexample :
    parseHeader intStrtod (some [ln "norm", ln "end_of_head"]) (List.replicate 256 'x') = .stale := by
  decide +kernel

/-- **C32, where it fails (4).**  Only blanks separate words, so after a tab the keyword's
argument is not isolated from what follows: it is stored together with the tab and the comment. -/
theorem header_tab_counterexample :
    hsummary (parseHeader intStrtod (some [ln "norm fully_normalized\tcomment", ln "end_of_head"])
      (List.replicate 256 'x')) = some (0, "fully_normalized\tcomment".toList, false, 0) := by
  decide +kernel

end Verif.Icgem
