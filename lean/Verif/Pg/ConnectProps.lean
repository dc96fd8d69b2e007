import Verif.Pg.ConnectSpec

/-!
# C52-C55: connecting
-/

namespace Verif.Pg
open Verif

section lemmas

theorem loop_configs (ok : Nat → Bool) (cfg : ConnConfig) (R : Int) (retries delay : Nat)
    (conn : Option Nat) : ∀ c ∈ configs (connectLoop ok cfg R retries delay conn).1, c = cfg := by
  fun_induction connectLoop ok cfg R retries delay conn with
  | case1 retries delay conn h hok r ih =>
    intro c hc
    rcases List.mem_cons.1 (show c ∈ cfg :: configs r.1 from hc) with h | h
    · exact h
    · exact ih c h
  | case2 retries delay conn h hok h2 r ih =>
    intro c hc
    rcases List.mem_cons.1 (show c ∈ cfg :: configs r.1 from hc) with h | h
    · exact h
    · exact ih c h
  | case3 => simp [configs]
  | case4 => simp [configs]

theorem applySSLMode_base {cfg cfg' : ConnConfig} {m : Str} (h : applySSLMode cfg m = .ok cfg') :
    cfg'.host = cfg.host ∧ cfg'.port = cfg.port ∧ cfg'.user = cfg.user ∧
      cfg'.password = cfg.password ∧ cfg'.database = cfg.database := by
  unfold applySSLMode at h
  split at h
  · cases h; simp
  split at h
  · cases h; simp
  split at h
  · cases h; simp
  split at h
  · cases h; simp
  split at h
  · cases h; simp
  · cases h

theorem configure_base {env cfg : ConnConfig} {o : Options} (h : configure env o = .ok cfg) :
    cfg.host = firstOfString o.host env.host ∧ cfg.port = firstOfUint16 o.port env.port ∧
      cfg.user = firstOfString o.username env.user ∧
      cfg.password = firstOfString o.password env.password ∧
      cfg.database = firstOfString o.database env.database := by
  unfold configure at h
  simp only at h
  generalize (if o.sslMode = [] ∧ firstOfString o.password env.password ≠ [] then b!"verify-full"
    else o.sslMode) = m at h
  by_cases hm : m = []
  · simp only [hm, ne_eq, not_true_eq_false, if_false] at h
    cases h; simp
  · simp only [hm, ne_eq, not_false_eq_true, if_true] at h
    exact applySSLMode_base h

theorem new_configs {env : ConnConfig} {ok : Nat → Bool} {o : Options} {c : ConnConfig}
    (h : c ∈ configs (new (.ok env) ok o).1) : configure env o = .ok c := by
  unfold new at h
  simp only at h
  split at h
  · simp [configs] at h
  · rename_i cfg hc
    rw [hc, loop_configs _ _ _ _ _ _ c h]

theorem chosen_string (a b : Str) : Chosen [] a b (firstOfString a b) := by
  unfold Chosen firstOfString; by_cases h : a = [] <;> simp [h]

theorem chosen_port (a b : UInt16) : Chosen 0 a b (firstOfUint16 a b) := by
  unfold Chosen firstOfUint16; by_cases h : a = 0 <;> simp [h]

end lemmas

/-- C52. Every connection attempt uses the explicit option when given and the environment's value
otherwise, for host, port, user, password and database. -/
theorem C52_options_win (env : ConnConfig) (ok : Nat → Bool) (o : Options) :
    ∀ c ∈ configs (new (.ok env) ok o).1,
      Chosen [] o.host env.host c.host ∧ Chosen 0 o.port env.port c.port ∧
      Chosen [] o.username env.user c.user ∧ Chosen [] o.password env.password c.password ∧
      Chosen [] o.database env.database c.database := by
  intro c hc
  obtain ⟨h1, h2, h3, h4, h5⟩ := configure_base (new_configs hc)
  rw [h1, h2, h3, h4, h5]
  exact ⟨chosen_string _ _, chosen_port _ _, chosen_string _ _, chosen_string _ _,
    chosen_string _ _⟩

/-- Explicit host and user, everything else from the environment: there is an attempt, and it uses
them. -/
example : configs (new (.ok { host := b!"env", port := 5432, user := b!"u", database := b!"d" })
      (fun _ => true) { host := b!"opt", username := b!"v" }).1 =
    [{ host := b!"opt", port := 5432, user := b!"v", database := b!"d" }] := by decide +kernel

/-- C53. Without an explicit mode a password forces verification of the host; `require` and
`verify-full` never permit plaintext; `verify-full` verifies the host; any other explicit mode than
the five known ones is an error without a connection attempt. -/
theorem C53_tls_policy (env : ConnConfig) (ok : Nat → Bool) (o : Options) :
    (o.sslMode = [] → ∀ c ∈ configs (new (.ok env) ok o).1, c.password ≠ [] → c.VerifiesHost) ∧
    (o.sslMode = b!"require" ∨ o.sslMode = b!"verify-full" →
      ∀ c ∈ configs (new (.ok env) ok o).1, ¬ c.PermitsPlaintext) ∧
    (o.sslMode = b!"verify-full" → ∀ c ∈ configs (new (.ok env) ok o).1, c.VerifiesHost) ∧
    (o.sslMode ≠ [] → o.sslMode ∉ sslModes → new (.ok env) ok o = ([], .err .sslmode)) := by
  refine ⟨?_, ?_, ?_, ?_⟩
  · intro hm c hc hp
    have h := new_configs hc
    have hb := (configure_base h).2.2.2.1
    unfold configure at h
    rw [hb] at hp
    simp [hm, hp, applySSLMode] at h
    subst h
    simp [ConnConfig.VerifiesHost, ConnConfig.transports]
  · intro hm c hc
    have h := new_configs hc
    unfold configure at h
    rcases hm with hm | hm <;> simp [hm, applySSLMode] at h <;> subst h <;>
      simp [ConnConfig.PermitsPlaintext, ConnConfig.transports]
  · intro hm c hc
    have h := new_configs hc
    unfold configure at h
    simp [hm, applySSLMode] at h
    subst h
    simp [ConnConfig.VerifiesHost, ConnConfig.transports]
  · intro hne hmem
    simp only [sslModes, List.mem_cons, List.not_mem_nil, or_false, not_or] at hmem
    simp [new, configure, applySSLMode, hne, hmem]

/-- A password and no mode, and an unknown mode. -/
example : (configs (new (.ok { host := b!"db" }) (fun _ => true) { password := b!"pw" }).1).map
      ConnConfig.transports = [[some { serverName := b!"db" }]] ∧
    new (.ok {}) (fun _ => true) { sslMode := b!"verify-ca" } = ([], .err .sslmode) := by
  decide +kernel

/-- The whole policy: the transports every attempt tries, for each mode. With no mode and no
password they are the environment's. -/
theorem C53_transports (env : ConnConfig) (ok : Nat → Bool) (o : Options) :
    ∀ c ∈ configs (new (.ok env) ok o).1, c.transports =
      if o.sslMode = [] then
        if c.password = [] then env.transports else [some { serverName := c.host }]
      else if o.sslMode = b!"disable" then [none]
      else if o.sslMode = b!"allow" then [none, some { insecureSkipVerify := true }]
      else if o.sslMode = b!"prefer" then [some { insecureSkipVerify := true }, none]
      else if o.sslMode = b!"require" then [some { insecureSkipVerify := true }]
      else [some { serverName := c.host }] := by
  intro c hc
  have h := new_configs hc
  have hb := (configure_base h).2.2.2.1
  rw [hb]
  unfold configure at h
  by_cases hm : o.sslMode = []
  · by_cases hp : firstOfString o.password env.password = []
    · simp [hm, hp] at h
      subst h
      simp [hm, hp, ConnConfig.transports]
    · simp [hm, hp, applySSLMode] at h
      subst h
      simp [hm, hp, ConnConfig.transports]
  · simp [hm, applySSLMode] at h
    by_cases h1 : o.sslMode = b!"disable"
    · simp [h1] at h; subst h; simp [h1, ConnConfig.transports]
    by_cases h2 : o.sslMode = b!"allow"
    · simp [h2] at h; subst h; simp [h2, ConnConfig.transports]
    by_cases h3 : o.sslMode = b!"prefer"
    · simp [h3] at h; subst h; simp [h3, ConnConfig.transports]
    by_cases h4 : o.sslMode = b!"require"
    · simp [h4] at h; subst h; simp [h4, ConnConfig.transports]
    by_cases h5 : o.sslMode = b!"verify-full"
    · simp [h5] at h; subst h; simp [h5, ConnConfig.transports]
    · simp [h1, h2, h3, h4, h5] at h

section lemmas

/-- The loop makes all remaining attempts, whatever their outcome. -/
theorem loop_attempts (ok : Nat → Bool) (cfg : ConnConfig) (R : Int) (retries delay : Nat)
    (conn : Option Nat) : attempts (connectLoop ok cfg R retries delay conn).1 =
      (List.range' retries (R + 1 - retries).toNat).map ok := by
  fun_induction connectLoop ok cfg R retries delay conn with
  | case1 retries delay conn h hok r ih =>
    have : (R + 1 - (retries : Int)).toNat = (R + 1 - ((retries + 1 : Nat) : Int)).toNat + 1 := by
      omega
    rw [this, List.range'_succ]
    simp only [attempts] at ih ⊢
    simp [r, ih, hok]
  | case2 retries delay conn h hok h2 r ih =>
    have : (R + 1 - (retries : Int)).toNat = (R + 1 - ((retries + 1 : Nat) : Int)).toNat + 1 := by
      omega
    rw [this, List.range'_succ]
    simp only [attempts] at ih ⊢
    simp [r, ih, hok]
  | case3 retries delay conn h hok h2 =>
    have : (R + 1 - (retries : Int)).toNat = 1 := by omega
    simp [this, attempts, hok]
  | case4 retries delay conn h =>
    have : (R + 1 - (retries : Int)).toNat = 0 := by omega
    simp [this, attempts]

/-- The result of the loop depends on the last attempt only. -/
theorem loop_result (ok : Nat → Bool) (cfg : ConnConfig) (R : Nat) (retries delay : Nat)
    (conn : Option Nat) (h : retries ≤ R) : (connectLoop ok cfg R retries delay conn).2 =
      if ok R then .conn R else .err (.attempt R) := by
  induction hn : R - retries generalizing retries delay conn with
  | zero =>
    obtain rfl : retries = R := by omega
    rw [connectLoop.eq_def]
    by_cases hok : ok retries
    · simp only [hok, Int.le_refl, if_true]
      rw [connectLoop.eq_def, if_neg (by omega)]
    · simp [hok]
  | succ n ih =>
    rw [connectLoop.eq_def, if_pos (by omega)]
    by_cases hok : ok retries
    · simp only [hok, if_true]
      exact ih (retries + 1) _ _ (by omega) (by omega)
    · rw [if_neg hok, if_pos (by omega)]
      exact ih (retries + 1) _ _ (by omega) (by omega)

theorem new_loop {env cfg : ConnConfig} {o : Options} (ok : Nat → Bool)
    (hc : configure env o = .ok cfg) :
    new (.ok env) ok o = connectLoop ok cfg o.connectRetries 0 100 none := by
  simp [new, hc]

end lemmas

/-- What `New` really does with a usable configuration: it always makes all the attempts, leaves
every successful one open, and its result is that of the last attempt. -/
theorem C54_all_attempts {env cfg : ConnConfig} {o : Options} (ok : Nat → Bool)
    (hc : configure env o = .ok cfg) (R : Nat) (hR : o.connectRetries = R) :
    attempts (new (.ok env) ok o).1 = (List.range (R + 1)).map ok ∧
      (new (.ok env) ok o).2 = if ok R then .conn R else .err (.attempt R) := by
  rw [new_loop ok hc, hR]
  refine ⟨?_, loop_result _ _ _ _ _ _ (Nat.zero_le _)⟩
  rw [loop_attempts, List.range_eq_range']
  congr 2

/-- C54 is false of the code. A success is followed by further attempts, each leaking a connection;
a success can be reported as an error; and with a negative number of retries `New` reports success
without any attempt. -/
theorem C54_refuted :
    ¬ (∀ (env cfg : ConnConfig) (o : Options) (ok : Nat → Bool) (R : Nat),
        configure env o = .ok cfg → o.connectRetries = R →
        StopsAtFirstSuccess ok R (attempts (new (.ok env) ok o).1) (new (.ok env) ok o).2) ∧
    (∃ (o : Options) (ok : Nat → Bool), ok 0 = true ∧
      (new (.ok {}) ok o).2 = .err (.attempt 1)) ∧
    (∃ (o : Options) (ok : Nat → Bool),
      (attempts (new (.ok {}) ok o).1).count true = 4 ∧ (new (.ok {}) ok o).2 = .conn 3) ∧
    (∀ (ok : Nat → Bool), new (.ok {}) ok { connectRetries := -1 } = ([], .nilConn)) := by
  refine ⟨?_, ⟨{ connectRetries := 1 }, fun i => i == 0, rfl, ?_⟩,
    ⟨{ connectRetries := 3 }, fun _ => true, ?_⟩, ?_⟩
  · intro h
    have h1 := (h {} {} { connectRetries := 1 } (fun _ => true) 1 (by decide +kernel) rfl).stops 0
    have h2 := (C54_all_attempts (env := {}) (cfg := {}) (o := { connectRetries := 1 })
      (fun _ => true) (by decide +kernel) 1 rfl).1
    rw [h2] at h1
    revert h1
    decide
  · exact (C54_all_attempts (env := {}) (cfg := {}) _ (by decide +kernel) 1 rfl).2
  · have := C54_all_attempts (env := {}) (cfg := {}) (o := { connectRetries := 3 })
      (fun _ => true) (by decide +kernel) 3 rfl
    rw [this.1, this.2]
    decide
  · intro ok
    rw [new_loop (cfg := {}) ok (by decide +kernel), connectLoop, if_neg (by simp)]

/-- C54, the part that holds: when no attempt before the last permitted one succeeds, `New` stops
at the first success. What is missing: stopping at an earlier success. -/
theorem C54_stops_at_first_success_partial {env cfg : ConnConfig} {o : Options} (ok : Nat → Bool)
    (hc : configure env o = .ok cfg) (R : Nat) (hR : o.connectRetries = R)
    (hf : ∀ i < R, ok i = false) :
    StopsAtFirstSuccess ok R (attempts (new (.ok env) ok o).1) (new (.ok env) ok o).2 := by
  obtain ⟨h1, h2⟩ := C54_all_attempts ok hc R hR
  have hcount : ((List.range (R + 1)).map ok).count true = if ok R then 1 else 0 := by
    rw [List.range_succ, List.map_append, List.count_append]
    have : ((List.range R).map ok).count true = 0 := by
      rw [List.count_eq_zero]
      intro hm
      obtain ⟨i, hi, he⟩ := List.mem_map.1 hm
      rw [hf i (List.mem_range.1 hi)] at he
      cases he
    rw [this]
    by_cases hok : ok R <;> simp [hok]
  have hex : (∃ i ≤ R, ok i = true) ↔ ok R = true := by
    constructor
    · rintro ⟨i, hi, ht⟩
      rcases Nat.lt_or_eq_of_le hi with h | h
      · rw [hf i h] at ht; cases ht
      · rw [← h]; exact ht
    · intro h; exact ⟨R, Nat.le_refl _, h⟩
  rw [h1, h2]
  by_cases hok : ok R = true
  · simp only [hok, if_true] at hcount ⊢
    refine ⟨⟨R + 1, Nat.le_refl _, rfl⟩, ?_, Or.inl (by simp), ?_, ?_, fun _ => hcount, ?_⟩
    · intro i hi
      simp only [List.length_map, List.length_range] at hi
      rw [List.getElem?_map, List.getElem?_range (by omega)]
      simp [hf i (by omega)]
    · rw [hex]; exact ⟨fun _ => hok, fun _ => ⟨R, rfl⟩⟩
    · intro i hi; cases hi; exact ⟨hok, hf⟩
    · intro h; exact absurd ⟨R, rfl⟩ h
  · have hok' : ok R = false := by simpa using hok
    simp only [hok', Bool.false_eq_true, if_false] at hcount ⊢
    refine ⟨⟨R + 1, Nat.le_refl _, rfl⟩, ?_, Or.inl (by simp), ?_, ?_, ?_, fun _ => ⟨hcount, _, rfl⟩⟩
    · intro i hi
      simp only [List.length_map, List.length_range] at hi
      rw [List.getElem?_map, List.getElem?_range (by omega)]
      simp [hf i (by omega)]
    · rw [hex]; simp [hok']
    · intro i hi; cases hi
    · rintro ⟨i, hi⟩; cases hi

/-- Two failures, then success on the last permitted attempt. -/
example : configure {} { connectRetries := 2 } = .ok {} ∧ (∀ i < 2, (i == 2) = false) ∧
    (new (.ok {}) (fun i => i == 2) { connectRetries := 2 }).2 = .conn 2 := by
  refine ⟨by decide +kernel, by decide, ?_⟩
  exact (C54_all_attempts (env := {}) (cfg := {}) _ (by decide +kernel) 2 rfl).2

section lemmas

/-- The delays when all attempts but possibly the last fail. -/
theorem loop_delays (ok : Nat → Bool) (cfg : ConnConfig) (R : Nat) (retries delay : Nat)
    (conn : Option Nat) (hf : ∀ i < R, ok i = false) :
    delays (connectLoop ok cfg R retries delay conn).1 =
      (delay :: (List.range' retries (R - retries)).map fun i => (2 ^^^ i) * 100).take
        (R - retries) := by
  induction hn : R - retries generalizing retries delay conn with
  | zero =>
    rw [connectLoop.eq_def]
    by_cases h : (retries : Int) ≤ R
    · rw [if_pos h]
      by_cases hok : ok retries
      · simp only [hok, if_true]
        rw [connectLoop.eq_def, if_neg (by omega)]
        simp [delays]
      · rw [if_neg hok, if_neg (by omega)]
        simp [delays]
    · rw [if_neg h]; simp [delays]
  | succ n ih =>
    rw [connectLoop.eq_def, if_pos (by omega), if_neg (by simp [hf retries (by omega)]),
      if_pos (by omega)]
    have := ih (retries + 1) ((2 ^^^ retries) * 100) none (by omega)
    simp only [delays] at this ⊢
    simp [this, List.range'_succ]

end lemmas

/-- What the delays really are when only the last attempt can succeed: 100 ms, and before the
retry after that `i` (from 0) the exclusive or of 2 and `i`, times 100 ms. -/
theorem C55_delays {env cfg : ConnConfig} {o : Options} (ok : Nat → Bool)
    (hc : configure env o = .ok cfg) (R : Nat) (hR : o.connectRetries = R)
    (hf : ∀ i < R, ok i = false) :
    delays (new (.ok env) ok o).1 =
      (100 :: (List.range R).map fun i => (2 ^^^ i) * 100).take R := by
  rw [new_loop ok hc, hR, loop_delays _ _ _ _ _ _ hf, List.range_eq_range']
  rfl

/-- C55 is false of the code: with four retries the delays are 100, 200, 300 and 0 milliseconds. -/
theorem C55_refuted :
    delays (new (.ok {}) (fun _ => false) { connectRetries := 4 }).1 = [100, 200, 300, 0] ∧
    ¬ (∀ (env cfg : ConnConfig) (o : Options) (ok : Nat → Bool), configure env o = .ok cfg →
        Doubling (delays (new (.ok env) ok o).1)) := by
  have h4 := C55_delays (env := {}) (cfg := {}) (o := { connectRetries := 4 })
    (fun _ => false) (by decide +kernel) 4 rfl (fun _ _ => rfl)
  have h4' : delays (new (.ok {}) (fun _ => false) { connectRetries := 4 }).1 =
      [100, 200, 300, 0] := by rw [h4]; decide
  refine ⟨h4', ?_⟩
  intro h
  have := (h {} {} { connectRetries := 4 } (fun _ => false) (by decide +kernel)).1 0
  rw [h4'] at this
  exact absurd (this (by decide)) (by decide)

/-- C55, the part that holds: with at most two retries every delay is positive and doubles,
whatever the outcomes. What is missing: three retries or more. -/
theorem C55_doubling_partial {env cfg : ConnConfig} {o : Options} (ok : Nat → Bool)
    (hc : configure env o = .ok cfg) (hR : o.connectRetries ≤ 2) :
    Doubling (delays (new (.ok env) ok o).1) := by
  have key : delays (new (.ok env) ok o).1 = [] ∨ delays (new (.ok env) ok o).1 = [100] ∨
      delays (new (.ok env) ok o).1 = [100, 200] := by
    rw [new_loop ok hc]
    generalize hr : o.connectRetries = r at hR
    by_cases h0 : r < 0
    · left; rw [connectLoop.eq_def, if_neg (by omega)]; rfl
    · obtain rfl | rfl | rfl : r = 0 ∨ r = 1 ∨ r = 2 := by omega
      · by_cases a : ok 0 <;> simp [connectLoop, a, delays]
      · by_cases a : ok 0 <;> by_cases b : ok 1 <;> simp [connectLoop, a, b, delays]
      · by_cases a : ok 0 <;> by_cases b : ok 1 <;> by_cases c : ok 2 <;>
          simp [connectLoop, a, b, c, delays]
  rcases key with h | h | h <;> rw [h]
  · exact ⟨by simp, by simp⟩
  · refine ⟨by simp, ?_⟩
    intro i a b h1 h2
    simp at h2
  · refine ⟨by simp, ?_⟩
    intro i a b h1 h2
    rcases i with _ | _ | i <;> simp at h1 h2
    omega

/-- Two failures before a success: delays of 100 and 200 milliseconds. -/
example : delays (new (.ok {}) (fun i => i == 2) { connectRetries := 2 }).1 = [100, 200] := by
  rw [C55_delays (env := {}) (cfg := {}) _ (by decide +kernel) 2 rfl (by decide)]
  decide

end Verif.Pg
