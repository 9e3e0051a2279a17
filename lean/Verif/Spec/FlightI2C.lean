import Verif.Model.FlightI2C
/-!
What is expected of a device on the flight computer's bus, said about histories of events.
-/
namespace PAN.Spec

/-- A bus call that failed: a transmission that was not acknowledged, a request or a write of no byte, a wait that did not end,
no byte where one was to be read, fewer or more bytes than were to be read. -/
def CallFailed : BusCall → Prop
  | .endTx code => ¬ code = 0
  | .request n => n = 0
  | .finish r => r = 0
  | .write n => n = 0
  | .read v => v = none
  | .peek v => v = none
  | .readN len got => ¬ got = len

/-- The event includes a failed bus call, or declares the device broken. -/
def Fails : DevEv → Prop
  | .call c => CallFailed c
  | .setup p => ∃ i < 3, (∀ j < i, (p j).ok = false) ∧ ∃ c ∈ (p i).calls, CallFailed c
  | .disable => True
  | .pop => False
  | .reset => False

/-- The event forgets the recent errors. -/
def Clears : DevEv → Prop
  | .pop => True
  | .reset => True
  | _ => False

/-- Something failed, and nothing after it cleared the record. -/
def FailedSince (evs : List DevEv) : Prop :=
  ∃ pre e post, evs = pre ++ e :: post ∧ Fails e ∧ ∀ e' ∈ post, ¬ Clears e'

/-- How many questions of a setup were in vain: those before the first that was answered, and at most three. -/
def vain (p : Nat → Ping) : Nat :=
  if (p 0).ok then 0 else if (p 1).ok then 1 else if (p 2).ok then 2 else 3

/-- The failed questions a history has accumulated: a reset forgets them, declaring the device broken counts as three. -/
def accumulated (k : Nat) : List DevEv → Nat
  | [] => k
  | .setup p :: evs => accumulated (k + vain p) evs
  | .reset :: evs => accumulated 0 evs
  | .disable :: evs => accumulated 3 evs
  | .call _ :: evs => accumulated k evs
  | .pop :: evs => accumulated k evs

/-- An exchange with the device and the reading of its errors: nothing else. -/
def Exchange : DevEv → Prop
  | .call _ => True
  | .pop => True
  | _ => False

end PAN.Spec
