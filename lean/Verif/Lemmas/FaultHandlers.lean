import Verif.Model.FaultHandlers
/-!
What each handler of the main fault handler leaves unchanged.
-/
namespace PAN
namespace FHState

theorem lowBattH_mission (s : FHState) : (lowBattH s).2.mission = s.mission := rfl
theorem lowBattH_enterClose (s : FHState) : (lowBattH s).2.enterClose = s.enterClose := rfl
theorem lowBattH_wheel1 (s : FHState) : (lowBattH s).2.wheel1 = s.wheel1 := rfl
theorem lowBattH_wheel2 (s : FHState) : (lowBattH s).2.wheel2 = s.wheel2 := rfl
theorem lowBattH_wheel3 (s : FHState) : (lowBattH s).2.wheel3 = s.wheel3 := rfl
theorem lowBattH_wheelPot (s : FHState) : (lowBattH s).2.wheelPot = s.wheelPot := rfl
theorem lowBattH_attEst (s : FHState) : (lowBattH s).2.attEst = s.attEst := rfl
theorem lowBattH_quake (s : FHState) : (lowBattH s).2.quake = s.quake := rfl
theorem lowBattH_radio (s : FHState) : (lowBattH s).2.radio = s.radio := rfl
theorem lowBattH_piksi (s : FHState) : (lowBattH s).2.piksi = s.piksi := rfl
theorem lowBattH_piksiState (s : FHState) : (lowBattH s).2.piksiState = s.piksiState := rfl
theorem lowBattH_prop (s : FHState) : (lowBattH s).2.prop = s.prop := rfl
theorem lowBattH_ctl (s : FHState) : (lowBattH s).2.ctl = s.ctl := rfl
theorem lowBattH_enabled (s : FHState) : (lowBattH s).2.enabled = s.enabled := rfl

theorem wheel1H_mission (s : FHState) : (wheel1H s).2.mission = s.mission := rfl
theorem wheel1H_enterClose (s : FHState) : (wheel1H s).2.enterClose = s.enterClose := rfl
theorem wheel1H_lowBatt (s : FHState) : (wheel1H s).2.lowBatt = s.lowBatt := rfl
theorem wheel1H_wheel2 (s : FHState) : (wheel1H s).2.wheel2 = s.wheel2 := rfl
theorem wheel1H_wheel3 (s : FHState) : (wheel1H s).2.wheel3 = s.wheel3 := rfl
theorem wheel1H_wheelPot (s : FHState) : (wheel1H s).2.wheelPot = s.wheelPot := rfl
theorem wheel1H_attEst (s : FHState) : (wheel1H s).2.attEst = s.attEst := rfl
theorem wheel1H_quake (s : FHState) : (wheel1H s).2.quake = s.quake := rfl
theorem wheel1H_radio (s : FHState) : (wheel1H s).2.radio = s.radio := rfl
theorem wheel1H_piksi (s : FHState) : (wheel1H s).2.piksi = s.piksi := rfl
theorem wheel1H_piksiState (s : FHState) : (wheel1H s).2.piksiState = s.piksiState := rfl
theorem wheel1H_prop (s : FHState) : (wheel1H s).2.prop = s.prop := rfl
theorem wheel1H_ctl (s : FHState) : (wheel1H s).2.ctl = s.ctl := rfl
theorem wheel1H_enabled (s : FHState) : (wheel1H s).2.enabled = s.enabled := rfl

theorem wheel2H_mission (s : FHState) : (wheel2H s).2.mission = s.mission := rfl
theorem wheel2H_enterClose (s : FHState) : (wheel2H s).2.enterClose = s.enterClose := rfl
theorem wheel2H_lowBatt (s : FHState) : (wheel2H s).2.lowBatt = s.lowBatt := rfl
theorem wheel2H_wheel1 (s : FHState) : (wheel2H s).2.wheel1 = s.wheel1 := rfl
theorem wheel2H_wheel3 (s : FHState) : (wheel2H s).2.wheel3 = s.wheel3 := rfl
theorem wheel2H_wheelPot (s : FHState) : (wheel2H s).2.wheelPot = s.wheelPot := rfl
theorem wheel2H_attEst (s : FHState) : (wheel2H s).2.attEst = s.attEst := rfl
theorem wheel2H_quake (s : FHState) : (wheel2H s).2.quake = s.quake := rfl
theorem wheel2H_radio (s : FHState) : (wheel2H s).2.radio = s.radio := rfl
theorem wheel2H_piksi (s : FHState) : (wheel2H s).2.piksi = s.piksi := rfl
theorem wheel2H_piksiState (s : FHState) : (wheel2H s).2.piksiState = s.piksiState := rfl
theorem wheel2H_prop (s : FHState) : (wheel2H s).2.prop = s.prop := rfl
theorem wheel2H_ctl (s : FHState) : (wheel2H s).2.ctl = s.ctl := rfl
theorem wheel2H_enabled (s : FHState) : (wheel2H s).2.enabled = s.enabled := rfl

theorem wheel3H_mission (s : FHState) : (wheel3H s).2.mission = s.mission := rfl
theorem wheel3H_enterClose (s : FHState) : (wheel3H s).2.enterClose = s.enterClose := rfl
theorem wheel3H_lowBatt (s : FHState) : (wheel3H s).2.lowBatt = s.lowBatt := rfl
theorem wheel3H_wheel1 (s : FHState) : (wheel3H s).2.wheel1 = s.wheel1 := rfl
theorem wheel3H_wheel2 (s : FHState) : (wheel3H s).2.wheel2 = s.wheel2 := rfl
theorem wheel3H_wheelPot (s : FHState) : (wheel3H s).2.wheelPot = s.wheelPot := rfl
theorem wheel3H_attEst (s : FHState) : (wheel3H s).2.attEst = s.attEst := rfl
theorem wheel3H_quake (s : FHState) : (wheel3H s).2.quake = s.quake := rfl
theorem wheel3H_radio (s : FHState) : (wheel3H s).2.radio = s.radio := rfl
theorem wheel3H_piksi (s : FHState) : (wheel3H s).2.piksi = s.piksi := rfl
theorem wheel3H_piksiState (s : FHState) : (wheel3H s).2.piksiState = s.piksiState := rfl
theorem wheel3H_prop (s : FHState) : (wheel3H s).2.prop = s.prop := rfl
theorem wheel3H_ctl (s : FHState) : (wheel3H s).2.ctl = s.ctl := rfl
theorem wheel3H_enabled (s : FHState) : (wheel3H s).2.enabled = s.enabled := rfl

theorem wheelPotH_mission (s : FHState) : (wheelPotH s).2.mission = s.mission := rfl
theorem wheelPotH_enterClose (s : FHState) : (wheelPotH s).2.enterClose = s.enterClose := rfl
theorem wheelPotH_lowBatt (s : FHState) : (wheelPotH s).2.lowBatt = s.lowBatt := rfl
theorem wheelPotH_wheel1 (s : FHState) : (wheelPotH s).2.wheel1 = s.wheel1 := rfl
theorem wheelPotH_wheel2 (s : FHState) : (wheelPotH s).2.wheel2 = s.wheel2 := rfl
theorem wheelPotH_wheel3 (s : FHState) : (wheelPotH s).2.wheel3 = s.wheel3 := rfl
theorem wheelPotH_attEst (s : FHState) : (wheelPotH s).2.attEst = s.attEst := rfl
theorem wheelPotH_quake (s : FHState) : (wheelPotH s).2.quake = s.quake := rfl
theorem wheelPotH_radio (s : FHState) : (wheelPotH s).2.radio = s.radio := rfl
theorem wheelPotH_piksi (s : FHState) : (wheelPotH s).2.piksi = s.piksi := rfl
theorem wheelPotH_piksiState (s : FHState) : (wheelPotH s).2.piksiState = s.piksiState := rfl
theorem wheelPotH_prop (s : FHState) : (wheelPotH s).2.prop = s.prop := rfl
theorem wheelPotH_ctl (s : FHState) : (wheelPotH s).2.ctl = s.ctl := rfl
theorem wheelPotH_enabled (s : FHState) : (wheelPotH s).2.enabled = s.enabled := rfl

theorem pressFailH_mission (s : FHState) : (pressFailH s).2.mission = s.mission := rfl
theorem pressFailH_enterClose (s : FHState) : (pressFailH s).2.enterClose = s.enterClose := rfl
theorem pressFailH_lowBatt (s : FHState) : (pressFailH s).2.lowBatt = s.lowBatt := rfl
theorem pressFailH_wheel1 (s : FHState) : (pressFailH s).2.wheel1 = s.wheel1 := rfl
theorem pressFailH_wheel2 (s : FHState) : (pressFailH s).2.wheel2 = s.wheel2 := rfl
theorem pressFailH_wheel3 (s : FHState) : (pressFailH s).2.wheel3 = s.wheel3 := rfl
theorem pressFailH_wheelPot (s : FHState) : (pressFailH s).2.wheelPot = s.wheelPot := rfl
theorem pressFailH_attEst (s : FHState) : (pressFailH s).2.attEst = s.attEst := rfl
theorem pressFailH_quake (s : FHState) : (pressFailH s).2.quake = s.quake := rfl
theorem pressFailH_radio (s : FHState) : (pressFailH s).2.radio = s.radio := rfl
theorem pressFailH_piksi (s : FHState) : (pressFailH s).2.piksi = s.piksi := rfl
theorem pressFailH_piksiState (s : FHState) : (pressFailH s).2.piksiState = s.piksiState := rfl
theorem pressFailH_prop (s : FHState) : (pressFailH s).2.prop = s.prop := rfl
theorem pressFailH_enabled (s : FHState) : (pressFailH s).2.enabled = s.enabled := rfl

theorem attEstH_mission (s : FHState) : (attEstH s).2.mission = s.mission := rfl
theorem attEstH_enterClose (s : FHState) : (attEstH s).2.enterClose = s.enterClose := rfl
theorem attEstH_lowBatt (s : FHState) : (attEstH s).2.lowBatt = s.lowBatt := rfl
theorem attEstH_wheel1 (s : FHState) : (attEstH s).2.wheel1 = s.wheel1 := rfl
theorem attEstH_wheel2 (s : FHState) : (attEstH s).2.wheel2 = s.wheel2 := rfl
theorem attEstH_wheel3 (s : FHState) : (attEstH s).2.wheel3 = s.wheel3 := rfl
theorem attEstH_wheelPot (s : FHState) : (attEstH s).2.wheelPot = s.wheelPot := rfl
theorem attEstH_quake (s : FHState) : (attEstH s).2.quake = s.quake := rfl
theorem attEstH_radio (s : FHState) : (attEstH s).2.radio = s.radio := rfl
theorem attEstH_piksi (s : FHState) : (attEstH s).2.piksi = s.piksi := rfl
theorem attEstH_piksiState (s : FHState) : (attEstH s).2.piksiState = s.piksiState := rfl
theorem attEstH_prop (s : FHState) : (attEstH s).2.prop = s.prop := rfl
theorem attEstH_ctl (s : FHState) : (attEstH s).2.ctl = s.ctl := rfl
theorem attEstH_enabled (s : FHState) : (attEstH s).2.enabled = s.enabled := rfl

theorem quakeH_mission (cc : U32) (s : FHState) : (quakeH cc s).2.mission = s.mission := rfl
theorem quakeH_enterClose (cc : U32) (s : FHState) : (quakeH cc s).2.enterClose = s.enterClose := rfl
theorem quakeH_lowBatt (cc : U32) (s : FHState) : (quakeH cc s).2.lowBatt = s.lowBatt := rfl
theorem quakeH_wheel1 (cc : U32) (s : FHState) : (quakeH cc s).2.wheel1 = s.wheel1 := rfl
theorem quakeH_wheel2 (cc : U32) (s : FHState) : (quakeH cc s).2.wheel2 = s.wheel2 := rfl
theorem quakeH_wheel3 (cc : U32) (s : FHState) : (quakeH cc s).2.wheel3 = s.wheel3 := rfl
theorem quakeH_wheelPot (cc : U32) (s : FHState) : (quakeH cc s).2.wheelPot = s.wheelPot := rfl
theorem quakeH_attEst (cc : U32) (s : FHState) : (quakeH cc s).2.attEst = s.attEst := rfl
theorem quakeH_piksi (cc : U32) (s : FHState) : (quakeH cc s).2.piksi = s.piksi := rfl
theorem quakeH_piksiState (cc : U32) (s : FHState) : (quakeH cc s).2.piksiState = s.piksiState := rfl
theorem quakeH_prop (cc : U32) (s : FHState) : (quakeH cc s).2.prop = s.prop := rfl
theorem quakeH_ctl (cc : U32) (s : FHState) : (quakeH cc s).2.ctl = s.ctl := rfl
theorem quakeH_enabled (cc : U32) (s : FHState) : (quakeH cc s).2.enabled = s.enabled := rfl

theorem piksiH_mission (cc : U32) (s : FHState) : (piksiH cc s).2.mission = s.mission := rfl
theorem piksiH_enterClose (cc : U32) (s : FHState) : (piksiH cc s).2.enterClose = s.enterClose := rfl
theorem piksiH_lowBatt (cc : U32) (s : FHState) : (piksiH cc s).2.lowBatt = s.lowBatt := rfl
theorem piksiH_wheel1 (cc : U32) (s : FHState) : (piksiH cc s).2.wheel1 = s.wheel1 := rfl
theorem piksiH_wheel2 (cc : U32) (s : FHState) : (piksiH cc s).2.wheel2 = s.wheel2 := rfl
theorem piksiH_wheel3 (cc : U32) (s : FHState) : (piksiH cc s).2.wheel3 = s.wheel3 := rfl
theorem piksiH_wheelPot (cc : U32) (s : FHState) : (piksiH cc s).2.wheelPot = s.wheelPot := rfl
theorem piksiH_attEst (cc : U32) (s : FHState) : (piksiH cc s).2.attEst = s.attEst := rfl
theorem piksiH_quake (cc : U32) (s : FHState) : (piksiH cc s).2.quake = s.quake := rfl
theorem piksiH_radio (cc : U32) (s : FHState) : (piksiH cc s).2.radio = s.radio := rfl
theorem piksiH_piksiState (cc : U32) (s : FHState) : (piksiH cc s).2.piksiState = s.piksiState := rfl
theorem piksiH_prop (cc : U32) (s : FHState) : (piksiH cc s).2.prop = s.prop := rfl
theorem piksiH_ctl (cc : U32) (s : FHState) : (piksiH cc s).2.ctl = s.ctl := rfl
theorem piksiH_enabled (cc : U32) (s : FHState) : (piksiH cc s).2.enabled = s.enabled := rfl

theorem propH_mission (s : FHState) : (propH s).2.mission = s.mission := rfl
theorem propH_enterClose (s : FHState) : (propH s).2.enterClose = s.enterClose := rfl
theorem propH_lowBatt (s : FHState) : (propH s).2.lowBatt = s.lowBatt := rfl
theorem propH_wheel1 (s : FHState) : (propH s).2.wheel1 = s.wheel1 := rfl
theorem propH_wheel2 (s : FHState) : (propH s).2.wheel2 = s.wheel2 := rfl
theorem propH_wheel3 (s : FHState) : (propH s).2.wheel3 = s.wheel3 := rfl
theorem propH_wheelPot (s : FHState) : (propH s).2.wheelPot = s.wheelPot := rfl
theorem propH_attEst (s : FHState) : (propH s).2.attEst = s.attEst := rfl
theorem propH_quake (s : FHState) : (propH s).2.quake = s.quake := rfl
theorem propH_radio (s : FHState) : (propH s).2.radio = s.radio := rfl
theorem propH_piksi (s : FHState) : (propH s).2.piksi = s.piksi := rfl
theorem propH_piksiState (s : FHState) : (propH s).2.piksiState = s.piksiState := rfl
theorem propH_enabled (s : FHState) : (propH s).2.enabled = s.enabled := rfl


/-- Rewrites with all of these. -/
macro "fh_frames" : tactic => `(tactic| simp only [lowBattH_mission, lowBattH_enterClose, lowBattH_wheel1,
  lowBattH_wheel2, lowBattH_wheel3, lowBattH_wheelPot, lowBattH_attEst, lowBattH_quake, lowBattH_radio, lowBattH_piksi,
  lowBattH_piksiState, lowBattH_prop, lowBattH_ctl, lowBattH_enabled, wheel1H_mission, wheel1H_enterClose,
  wheel1H_lowBatt, wheel1H_wheel2, wheel1H_wheel3, wheel1H_wheelPot, wheel1H_attEst, wheel1H_quake, wheel1H_radio,
  wheel1H_piksi, wheel1H_piksiState, wheel1H_prop, wheel1H_ctl, wheel1H_enabled, wheel2H_mission, wheel2H_enterClose,
  wheel2H_lowBatt, wheel2H_wheel1, wheel2H_wheel3, wheel2H_wheelPot, wheel2H_attEst, wheel2H_quake, wheel2H_radio,
  wheel2H_piksi, wheel2H_piksiState, wheel2H_prop, wheel2H_ctl, wheel2H_enabled, wheel3H_mission, wheel3H_enterClose,
  wheel3H_lowBatt, wheel3H_wheel1, wheel3H_wheel2, wheel3H_wheelPot, wheel3H_attEst, wheel3H_quake, wheel3H_radio,
  wheel3H_piksi, wheel3H_piksiState, wheel3H_prop, wheel3H_ctl, wheel3H_enabled, wheelPotH_mission,
  wheelPotH_enterClose, wheelPotH_lowBatt, wheelPotH_wheel1, wheelPotH_wheel2, wheelPotH_wheel3, wheelPotH_attEst,
  wheelPotH_quake, wheelPotH_radio, wheelPotH_piksi, wheelPotH_piksiState, wheelPotH_prop, wheelPotH_ctl,
  wheelPotH_enabled, pressFailH_mission, pressFailH_enterClose, pressFailH_lowBatt, pressFailH_wheel1,
  pressFailH_wheel2, pressFailH_wheel3, pressFailH_wheelPot, pressFailH_attEst, pressFailH_quake, pressFailH_radio,
  pressFailH_piksi, pressFailH_piksiState, pressFailH_prop, pressFailH_enabled, attEstH_mission, attEstH_enterClose,
  attEstH_lowBatt, attEstH_wheel1, attEstH_wheel2, attEstH_wheel3, attEstH_wheelPot, attEstH_quake, attEstH_radio,
  attEstH_piksi, attEstH_piksiState, attEstH_prop, attEstH_ctl, attEstH_enabled, quakeH_mission, quakeH_enterClose,
  quakeH_lowBatt, quakeH_wheel1, quakeH_wheel2, quakeH_wheel3, quakeH_wheelPot, quakeH_attEst, quakeH_piksi,
  quakeH_piksiState, quakeH_prop, quakeH_ctl, quakeH_enabled, piksiH_mission, piksiH_enterClose, piksiH_lowBatt,
  piksiH_wheel1, piksiH_wheel2, piksiH_wheel3, piksiH_wheelPot, piksiH_attEst, piksiH_quake, piksiH_radio,
  piksiH_piksiState, piksiH_prop, piksiH_ctl, piksiH_enabled, propH_mission, propH_enterClose, propH_lowBatt,
  propH_wheel1, propH_wheel2, propH_wheel3, propH_wheelPot, propH_attEst, propH_quake, propH_radio, propH_piksi,
  propH_piksiState, propH_enabled])

end FHState
end PAN
