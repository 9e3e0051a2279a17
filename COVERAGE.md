# Lines of the code cited by the model

Generated by `tools/coverage.py`. "code" counts lines that are not blank, comments, preprocessor directives or single
braces; "cited" those of them within a range cited by a definition of the model. A cited range may contain lines the
definition says it leaves out; declarations in headers are rarely cited although their effect is modelled.

| file | code | cited |
|---|---|---|
| src/fsw/FCCode/ADCSBoxController.cpp | 79 | 78 |
| src/fsw/FCCode/ADCSBoxController.hpp | 26 | 0 |
| src/fsw/FCCode/ADCSBoxMonitor.cpp | 189 | 179 |
| src/fsw/FCCode/ADCSBoxMonitor.hpp | 54 | 0 |
| src/fsw/FCCode/ADCSCommander.cpp | 115 | 114 |
| src/fsw/FCCode/ADCSCommander.hpp | 34 | 0 |
| src/fsw/FCCode/AttitudeController.cpp | 137 | 137 |
| src/fsw/FCCode/AttitudeController.hpp | 37 | 0 |
| src/fsw/FCCode/ClockManager.cpp | 19 | 15 |
| src/fsw/FCCode/ClockManager.hpp | 11 | 0 |
| src/fsw/FCCode/ControlTask.hpp | 89 | 84 |
| src/fsw/FCCode/DCDCController.cpp | 49 | 49 |
| src/fsw/FCCode/DCDCController.hpp | 13 | 0 |
| src/fsw/FCCode/DebugTask.cpp | 23 | 16 |
| src/fsw/FCCode/DebugTask.hpp | 9 | 0 |
| src/fsw/FCCode/Devices/Device.cpp | 6 | 0 |
| src/fsw/FCCode/Devices/Device.hpp | 13 | 0 |
| src/fsw/FCCode/Devices/I2CDevice.cpp | 20 | 19 |
| src/fsw/FCCode/Devices/I2CDevice.hpp | 51 | 0 |
| src/fsw/FCCode/Devices/I2CDevice.inl | 88 | 39 |
| src/fsw/FCCode/DockingController.cpp | 38 | 38 |
| src/fsw/FCCode/DockingController.hpp | 14 | 5 |
| src/fsw/FCCode/DownlinkProducer.cpp | 175 | 169 |
| src/fsw/FCCode/DownlinkProducer.hpp | 49 | 26 |
| src/fsw/FCCode/Drivers/ADCS.cpp | 185 | 132 |
| src/fsw/FCCode/Drivers/ADCS.hpp | 46 | 0 |
| src/fsw/FCCode/Drivers/DCDC.cpp | 32 | 29 |
| src/fsw/FCCode/Drivers/DCDC.hpp | 22 | 0 |
| src/fsw/FCCode/Drivers/DockingSystem.cpp | 60 | 51 |
| src/fsw/FCCode/Drivers/DockingSystem.hpp | 35 | 0 |
| src/fsw/FCCode/Drivers/Gomspace.cpp | 381 | 356 |
| src/fsw/FCCode/Drivers/Gomspace.hpp | 128 | 36 |
| src/fsw/FCCode/Drivers/Piksi.cpp | 310 | 224 |
| src/fsw/FCCode/Drivers/Piksi.hpp | 138 | 25 |
| src/fsw/FCCode/Drivers/PropulsionSystem.cpp | 146 | 115 |
| src/fsw/FCCode/Drivers/PropulsionSystem.hpp | 93 | 18 |
| src/fsw/FCCode/Drivers/QLocate.cpp | 148 | 105 |
| src/fsw/FCCode/Drivers/QLocate.hpp | 43 | 27 |
| src/fsw/FCCode/DummyMainControlLoop.cpp | 11 | 0 |
| src/fsw/FCCode/DummyMainControlLoop.hpp | 10 | 0 |
| src/fsw/FCCode/EEPROMController.hpp | 15 | 0 |
| src/fsw/FCCode/EEPROMControllerCommon.cpp | 11 | 11 |
| src/fsw/FCCode/EEPROMControllerDesktop.cpp | 28 | 15 |
| src/fsw/FCCode/EEPROMControllerTeensy.cpp | 18 | 17 |
| src/fsw/FCCode/Estimators.cpp | 14 | 12 |
| src/fsw/FCCode/Estimators.hpp | 16 | 0 |
| src/fsw/FCCode/Estimators/AttitudeEstimator.cpp | 148 | 124 |
| src/fsw/FCCode/Estimators/AttitudeEstimator.hpp | 44 | 0 |
| src/fsw/FCCode/Estimators/OrbitEstimator.cpp | 73 | 63 |
| src/fsw/FCCode/Estimators/OrbitEstimator.hpp | 26 | 0 |
| src/fsw/FCCode/Estimators/RelativeOrbitEstimator.cpp | 189 | 176 |
| src/fsw/FCCode/Estimators/RelativeOrbitEstimator.hpp | 42 | 20 |
| src/fsw/FCCode/Estimators/TimeEstimator.cpp | 65 | 65 |
| src/fsw/FCCode/Estimators/TimeEstimator.hpp | 22 | 0 |
| src/fsw/FCCode/FaultHandlerMachine.hpp | 10 | 0 |
| src/fsw/FCCode/FieldCreatorTask.hpp | 12 | 3 |
| src/fsw/FCCode/GomspaceController.cpp | 226 | 226 |
| src/fsw/FCCode/GomspaceController.hpp | 88 | 1 |
| src/fsw/FCCode/MainControlLoop.cpp | 107 | 103 |
| src/fsw/FCCode/MainControlLoop.hpp | 39 | 0 |
| src/fsw/FCCode/MainFaultHandler.cpp | 53 | 49 |
| src/fsw/FCCode/MainFaultHandler.hpp | 12 | 0 |
| src/fsw/FCCode/MissionManager.cpp | 238 | 218 |
| src/fsw/FCCode/MissionManager.hpp | 91 | 39 |
| src/fsw/FCCode/OrbitController.cpp | 171 | 166 |
| src/fsw/FCCode/OrbitController.hpp | 42 | 2 |
| src/fsw/FCCode/PiksiControlTask.cpp | 78 | 76 |
| src/fsw/FCCode/PiksiControlTask.hpp | 25 | 10 |
| src/fsw/FCCode/PiksiFaultHandler.cpp | 50 | 47 |
| src/fsw/FCCode/PiksiFaultHandler.hpp | 16 | 8 |
| src/fsw/FCCode/PropController.cpp | 363 | 350 |
| src/fsw/FCCode/PropController.hpp | 226 | 101 |
| src/fsw/FCCode/PropFaultHandler.cpp | 48 | 41 |
| src/fsw/FCCode/PropFaultHandler.h | 18 | 3 |
| src/fsw/FCCode/QuakeControlTask.cpp | 89 | 65 |
| src/fsw/FCCode/QuakeControlTask.h | 43 | 4 |
| src/fsw/FCCode/QuakeFaultHandler.cpp | 87 | 76 |
| src/fsw/FCCode/QuakeFaultHandler.hpp | 25 | 6 |
| src/fsw/FCCode/QuakeManager.cpp | 180 | 159 |
| src/fsw/FCCode/QuakeManager.h | 65 | 20 |
| src/fsw/FCCode/SimpleFaultHandler.cpp | 54 | 41 |
| src/fsw/FCCode/SimpleFaultHandler.hpp | 20 | 0 |
| src/fsw/FCCode/TimedControlTask.cpp | 2 | 0 |
| src/fsw/FCCode/TimedControlTask.hpp | 63 | 45 |
| src/fsw/FCCode/UplinkCommon.cpp | 50 | 49 |
| src/fsw/FCCode/UplinkCommon.h | 9 | 0 |
| src/fsw/FCCode/UplinkConsumer.cpp | 22 | 11 |
| src/fsw/FCCode/UplinkConsumer.h | 10 | 0 |
| src/fsw/FCCode/constants.hpp | 13 | 10 |
| src/fsw/targets/adcs_test.cpp | 174 | 0 |
| src/fsw/targets/mtr_ptest.cpp | 85 | 0 |
| src/fsw/targets/native.cpp | 6 | 0 |
| src/fsw/targets/native_dummy.cpp | 7 | 0 |
| src/fsw/targets/piksi_test.cpp | 7 | 0 |
| src/fsw/targets/preflight.cpp | 14 | 0 |
| src/fsw/targets/teensy.cpp | 5 | 0 |
| src/fsw/targets/teensy_stub.cpp | 2 | 0 |
| src/common/ConstexprMap.hpp | 16 | 7 |
| src/common/Event.cpp | 57 | 41 |
| src/common/Event.hpp | 37 | 30 |
| src/common/EventStorage.cpp | 29 | 18 |
| src/common/EventStorage.hpp | 16 | 16 |
| src/common/Fault.cpp | 59 | 48 |
| src/common/Fault.hpp | 30 | 30 |
| src/common/GPSTime.hpp | 79 | 63 |
| src/common/Nameable.hpp | 3 | 0 |
| src/common/Serializer.hpp | 59 | 12 |
| src/common/SerializerTypes.inl | 468 | 342 |
| src/common/StateField.hpp | 19 | 0 |
| src/common/StateFieldBase.hpp | 6 | 0 |
| src/common/StateFieldRegistry.cpp | 61 | 61 |
| src/common/StateFieldRegistry.hpp | 20 | 6 |
| src/common/StateFieldTypes.inl | 105 | 70 |
| src/common/bitstream.cpp | 143 | 138 |
| src/common/bitstream.h | 29 | 6 |
| src/common/debug_console.cpp | 227 | 160 |
| src/common/debug_console.hpp | 30 | 8 |
| src/common/fixed_array.hpp | 95 | 62 |
| src/common/targets/blink.cpp | 7 | 0 |
| src/common/targets/main.cpp | 2 | 0 |
| src/common/targets/serializer_test.cpp | 8 | 0 |
| src/common/types.hpp | 5 | 0 |
| src/adcs/characterization/imu_test.cpp | 35 | 0 |
| src/adcs/characterization/wheel_speed_test.cpp | 75 | 0 |
| src/adcs/constants.hpp | 66 | 34 |
| src/adcs/dev/AD5254.cpp | 33 | 27 |
| src/adcs/dev/AD5254.hpp | 27 | 5 |
| src/adcs/dev/ADS1015.cpp | 54 | 47 |
| src/adcs/dev/ADS1015.hpp | 50 | 42 |
| src/adcs/dev/Device.hpp | 13 | 13 |
| src/adcs/dev/GyroHeaterTransistor.cpp | 15 | 0 |
| src/adcs/dev/GyroHeaterTransistor.hpp | 10 | 0 |
| src/adcs/dev/I2CDevice.hpp | 31 | 8 |
| src/adcs/dev/I2CDevice.inl | 57 | 46 |
| src/adcs/dev/LIS2MDLTR.cpp | 43 | 39 |
| src/adcs/dev/LIS2MDLTR.hpp | 44 | 11 |
| src/adcs/dev/LSM6DSM.cpp | 42 | 36 |
| src/adcs/dev/LSM6DSM.hpp | 42 | 6 |
| src/adcs/dev/MMC34160PJ.cpp | 93 | 89 |
| src/adcs/dev/MMC34160PJ.hpp | 45 | 13 |
| src/adcs/dev/Magnetorquer.cpp | 21 | 14 |
| src/adcs/dev/Magnetorquer.hpp | 13 | 0 |
| src/adcs/dev/MaxonEC45.cpp | 35 | 24 |
| src/adcs/dev/MaxonEC45.hpp | 24 | 0 |
| src/adcs/havt.cpp | 63 | 56 |
| src/adcs/havt.hpp | 9 | 0 |
| src/adcs/havt_devices.hpp | 25 | 0 |
| src/adcs/imu.cpp | 149 | 86 |
| src/adcs/imu.hpp | 16 | 0 |
| src/adcs/imu_calibration.cpp | 17 | 0 |
| src/adcs/imu_calibration.hpp | 5 | 0 |
| src/adcs/imu_config.hpp | 27 | 22 |
| src/adcs/main.cpp | 144 | 107 |
| src/adcs/mtr.cpp | 46 | 25 |
| src/adcs/mtr.hpp | 7 | 0 |
| src/adcs/mtr_config.hpp | 27 | 14 |
| src/adcs/rwa.cpp | 118 | 82 |
| src/adcs/rwa.hpp | 12 | 0 |
| src/adcs/rwa_config.hpp | 35 | 29 |
| src/adcs/scripts/ADS1015_test.cpp | 27 | 0 |
| src/adcs/scripts/LSM6DSM_test.cpp | 28 | 0 |
| src/adcs/scripts/MMC34160PJ_test.cpp | 34 | 0 |
| src/adcs/scripts/imu_test.cpp | 20 | 0 |
| src/adcs/scripts/mtr_test.cpp | 12 | 0 |
| src/adcs/scripts/rwa_test.cpp | 55 | 0 |
| src/adcs/scripts/smoke_test.cpp | 5 | 0 |
| src/adcs/scripts/ssa_test.cpp | 13 | 0 |
| src/adcs/scripts/state_test.cpp | 9 | 0 |
| src/adcs/ssa.cpp | 78 | 44 |
| src/adcs/ssa.hpp | 9 | 0 |
| src/adcs/ssa_config.hpp | 46 | 40 |
| src/adcs/state.cpp | 45 | 43 |
| src/adcs/state.hpp | 49 | 0 |
| src/adcs/state_controller.cpp | 293 | 279 |
| src/adcs/state_controller.hpp | 7 | 0 |
| src/adcs/state_registers.hpp | 33 | 0 |
| src/adcs/utl/convert.hpp | 12 | 0 |
| src/adcs/utl/convert.inl | 20 | 10 |
| src/gsw/parsers/src/DownlinkParser.cpp | 189 | 177 |
| src/gsw/parsers/src/DownlinkParser.hpp | 13 | 0 |
| src/gsw/parsers/src/TelemetryInfoGenerator.cpp | 187 | 179 |
| src/gsw/parsers/src/TelemetryInfoGenerator.hpp | 27 | 12 |
| src/gsw/parsers/src/UplinkProducer.cpp | 185 | 155 |
| src/gsw/parsers/src/UplinkProducer.h | 25 | 0 |
| src/gsw/parsers/targets/downlink_parser.cpp | 8 | 0 |
| src/gsw/parsers/targets/telem_info_generator.cpp | 15 | 0 |
| src/gsw/parsers/targets/uplink_producer.cpp | 21 | 0 |
| src/prep/FillingSequence_with_gomspace_pings.cpp | 165 | 163 |
| total | 11590 | 7613 |
