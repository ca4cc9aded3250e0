import Verif.Spec.ToolMain

/-!
# C76, C77: the connection of `vanflow-tool`
-/
namespace Verif.Props
open Verif.Model Verif.Spec

theorem parse_verify {fs : ToolFiles} {t : ToolTls} {c : TlsConfig} (h : t.parse fs = some c) :
    (t.verify = true → ChecksServer fs t c) ∧ (t.verify = false → c.insecureSkipVerify = true) ∧
    (c.certificates = [] ↔ fs.stat t.cert = false ∧ fs.stat t.key = false) ∧
    (∀ x ∈ c.certificates, fs.keyPair t.cert t.key = some x) := by
  unfold ToolTls.parse at h
  cases hv : t.verify <;> simp only [hv, Bool.false_eq_true, if_false, if_true] at h
  all_goals
    cases hr : fs.read t.ca <;> simp only [hr, Option.map_none, Option.map_some, Option.bind_none, Option.bind_some, reduceCtorEq] at h
  all_goals
    split at h
    · rename_i hst
      cases hk : fs.keyPair t.cert t.key <;> simp only [hk, Option.map_none, Option.map_some, reduceCtorEq, Option.some.injEq] at h
      subst h
      simp [ChecksServer, hr]
      intro h
      simpa [h] using hst
    · rename_i hst
      simp only [Option.some.injEq] at h
      subst h
      simp [ChecksServer, hr]
      simpa using hst

theorem toolConn_settings {fs : ToolFiles} {fl : ToolFlags} {r : ToolConn} (h : toolConn fs fl = some r) :
    match settingsInForce fs fl with
    | none => r.tls = none
    | some t => ∃ c, t.parse fs = some c ∧ r.tls = some c := by
  unfold toolConn at h
  cases hm : toolMessaging fs fl with
  | none => simp [hm] at h
  | some m =>
    obtain ⟨url, tls⟩ := m
    simp only [hm, Option.bind_some] at h
    unfold settingsInForce
    split at h
    · rename_i hc
      rw [if_pos hc]
      simp only [Option.map_map] at h
      cases hp : ToolTls.parse { ca := fl.ca, cert := fl.cert, key := fl.key, verify := fl.tlsVerify } fs with
      | none => simp [hp] at h
      | some c =>
        simp only [hp, Option.map_some, Function.comp, Option.some.injEq] at h
        exact ⟨c, hp, by rw [← h]⟩
    · rename_i hc
      rw [if_neg hc]
      simp only [Option.map_some, Option.some.injEq] at h
      subst h
      unfold toolMessaging at hm
      split at hm
      · rename_i hmc
        rw [if_neg hmc]
        cases hr : fs.read fl.messagingConfig with
        | none => simp [hr] at hm
        | some b =>
          simp only [hr, Option.bind_some] at hm ⊢
          cases hj : fs.connect b with
          | none => simp [hj] at hm
          | some cfg =>
            simp only [hj, Option.bind_some] at hm ⊢
            split at hm
            · rename_i hca
              rw [if_neg hca]
              cases hp : cfg.tls.parse fs with
              | none => simp [hp] at hm
              | some c =>
                simp only [hp, Option.map_some, Option.some.injEq, Prod.mk.injEq] at hm
                exact ⟨c, hp, hm.2.symm⟩
            · rename_i hca
              rw [if_pos (by simpa using hca)]
              simp only [Option.some.injEq, Prod.mk.injEq] at hm
              exact hm.2.symm
      · rename_i hmc
        rw [if_pos (by simpa using hmc)]
        simp only [Option.some.injEq, Prod.mk.injEq] at hm
        exact hm.2.symm

/-- C76: whenever the tool connects, the certificate of the server is checked against the named CA if the settings in force say so, and the check is switched off
only if they do not; without settings in force there is no TLS configuration (the defaults of the AMQP library apply, which check the server). -/
theorem C76_verification {fs : ToolFiles} {fl : ToolFlags} {r : ToolConn} (h : toolConn fs fl = some r) :
    match settingsInForce fs fl with
    | none => r.tls = none
    | some t => ∃ c, r.tls = some c ∧ (t.verify = true → ChecksServer fs t c) ∧ (c.insecureSkipVerify = true → t.verify = false) := by
  have h1 := toolConn_settings h
  revert h1
  cases settingsInForce fs fl with
  | none => exact id
  | some t =>
    rintro ⟨c, h1, h2⟩
    obtain ⟨p1, -, -⟩ := parse_verify h1
    refine ⟨c, h2, p1, fun hi => ?_⟩
    cases hv : t.verify with
    | false => rfl
    | true => rw [(p1 hv).1] at hi; cases hi

/-- C76: if anything needed cannot be read, the tool does not connect: with checking on, an unreadable CA file ends it. -/
theorem C76_unreadable {fs : ToolFiles} {fl : ToolFlags} {t : ToolTls} (ht : settingsInForce fs fl = some t) (hv : t.verify = true)
    (hr : fs.read t.ca = none) : toolConn fs fl = none := by
  cases h : toolConn fs fl with
  | none => rfl
  | some r =>
    have h1 := toolConn_settings h
    rw [ht] at h1
    obtain ⟨c, h1, -⟩ := h1
    obtain ⟨_, text, h2, _⟩ := (parse_verify h1).1 hv
    rw [hr] at h2
    cases h2

/-- A file system with a CA, a certificate, a key, and three connect.json. -/
def exFiles : ToolFiles :=
  { read := fun p => if p = "ca.pem" then some "CA" else if p = "connect.json" ∨ p = "noverify.json" ∨ p = "noca.json" then some p else none
    stat := fun p => p = "tls.crt" ∨ p = "tls.key"
    keyPair := fun c k => if c = "tls.crt" ∧ k = "tls.key" then some 7 else none
    connect := fun b =>
      let full : ToolTls := { ca := "ca.pem", cert := "tls.crt", key := "tls.key", verify := true }
      some { scheme := "amqps", host := "router", port := "5671"
             tls := if b = "noverify.json" then { full with verify := false } else if b = "noca.json" then { full with ca := "" } else full } }

example : toolConn exFiles { messagingConfig := "connect.json" } =
    some { url := "amqps://router:5671", tls := some { insecureSkipVerify := false, rootCAs := some "CA", certificates := [7] }, external := true } := by
  decide +kernel

example : toolConn exFiles { cert := "tls.crt", key := "tls.key", ca := "ca.pem" } =
    some { url := "amqp://localhost:5671", tls := some { insecureSkipVerify := false, rootCAs := some "CA", certificates := [7] }, external := true } := by
  decide +kernel

/-- The flags -ca, -key and -tls-verify have no effect unless -cert is given. -/
theorem C76_flags_ignored (fs : ToolFiles) (fl : ToolFlags) (hc : fl.cert = "") (ca key : String) (v : Bool) :
    toolConn fs { fl with ca := ca, key := key, tlsVerify := v } = toolConn fs fl := by
  unfold toolConn toolMessaging
  simp [hc]

/-- A connect.json that does not mention `verify` switches the check off (the zero value of the field). -/
theorem C76_default_insecure : ∃ c, toolConn exFiles { messagingConfig := "noverify.json" } = some c ∧
    c.tls.map TlsConfig.insecureSkipVerify = some true := ⟨_, rfl, by decide +kernel⟩

/-- C77, the part that holds: SASL EXTERNAL is asked for exactly when there is a TLS configuration.  Missing: that it then has a client certificate (false,
`C77_counterexample`); `C77_certificate` says when it has. -/
theorem C77_external_partial {fs : ToolFiles} {fl : ToolFlags} {r : ToolConn} (h : toolConn fs fl = some r) :
    r.external = true ↔ (settingsInForce fs fl).isSome = true := by
  have h1 := toolConn_settings h
  have h2 : r.external = r.tls.isSome := by
    unfold toolConn at h
    cases hm : toolMessaging fs fl with
    | none => simp [hm] at h
    | some m =>
      obtain ⟨url, tls⟩ := m
      simp only [hm, Option.bind_some, Option.map_eq_some_iff] at h
      obtain ⟨t, -, rfl⟩ := h
      rfl
  rw [h2]
  revert h1
  cases settingsInForce fs fl with
  | none => intro h1; simp [h1]
  | some t => rintro ⟨c, _, h1⟩; simp [h1]

/-- C77: with TLS settings in force there is a client certificate exactly when one of the two files exists, and it is the pair named. -/
theorem C77_certificate {fs : ToolFiles} {fl : ToolFlags} {r : ToolConn} (h : toolConn fs fl = some r) {t : ToolTls} (ht : settingsInForce fs fl = some t) :
    ∃ c, r.tls = some c ∧ (c.certificates = [] ↔ fs.stat t.cert = false ∧ fs.stat t.key = false) ∧ ∀ x ∈ c.certificates, fs.keyPair t.cert t.key = some x := by
  have h1 := toolConn_settings h
  rw [ht] at h1
  obtain ⟨c, h1, h2⟩ := h1
  obtain ⟨-, -, p3, p4⟩ := parse_verify h1
  exact ⟨c, h2, p3, p4⟩

/-- C77 is false: with wrong file names the tool connects with SASL EXTERNAL and no client certificate. -/
theorem C77_counterexample : toolConn exFiles { cert := "tsl.crt", key := "tsl.key", ca := "ca.pem" } =
    some { url := "amqp://localhost:5671", tls := some { insecureSkipVerify := false, rootCAs := some "CA", certificates := [] }, external := true } := by
  decide +kernel

end Verif.Props
