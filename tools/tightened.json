{
 "call|check dropped": [
  "C139_zero_division"
 ],
 "changeSuction|flag not set": [
  "C226_drying_flag"
 ],
 "dryRow|ratio inverted": [
  "C199_slurry_volumes"
 ],
 "slurryRow|reference lost": [
  "C199_slurry_volumes"
 ],
 "orElse|normalised value ignored": [
  "C165_normalised_kept",
  "C165_normalised_only"
 ],
 "optLoad|raw value stored": [
  "C177_vehicles_both"
 ],
 "dataFiles|extension of the data files for the input": [
  "C240_data"
 ],
 "dataFiles|flag ignored": [
  "C240_data"
 ],
 "dataFiles|input text saved twice": [
  "C240_data"
 ]
}