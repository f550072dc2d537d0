N = 'Argo.Nmea2k.'
def n(pid, status, thms, note=''): c(pid, status, [N+x for x in thms], note)
n('C33','proved',['C33_first','C33_last','C33_first_le_last','C33_contiguous','C33_definition'])
n('C34','proved',['C34_offsets'])
n('C35','proved',['C35_number'])
n('C36','partial',['C36_false','C36_false_witness'],'False: the not-available test never succeeds, proved for every input.')
n('C37','partial',['C37_partial','C37_false','C37_false_witness'],'Proved for widths 8, 16, 32, 64; false for other widths.')
n('C38','partial',['C38_partial','C38_list','C38_false','C38_false_wide','C38_repetitions_partial'],'Proved for all shipped fields except 28 straddling and 3 over-wide ones, for which it is false.')
n('C39','proved',['C39_latlon'])
n('C40','partial',['C40_partial','C40_false'],'Exact below day 49711, false from there on.')
n('C41','partial',['C41_partial','C41_false'],'Whole seconds exact; fraction ten times too small.')
n('C42','proved',['C42_scaled'])
n('C43','partial',['C43_partial','C43_false'],'False when the field ends exactly at the end of the message.')
n('C44','partial',['C44_partial','C44_false'],'Panics when start+length wraps past 255.')
n('C45','proved',['C45_general','C45_terminates','C45_needs_positive_group'])
n('C46','partial',['C46_exact','C46_partial','C46_lz_pgns','C46_130842','C46_60928','C46_false'],'False as stated (C46_false); C46_exact: for the shipped table and every message, the exact condition under which decoding panics.')
n('C48','proved',['C48_unknown'])
n('C49','proved',['C49_shape'])
n('C50','proved',['C50_entries','C50_fixed','C50_shipped'])
n('C51','proved',['C51_print','C51_shipped','print_needs_parsed'])
n('C47','partial',['C47_search','C47_partial','C47_general','C47_range','C47_single','C47_false_unmatched','C47_false_130820','C47_false_130816','C47_text_false','C47_126720'],'C47_search: exactly which definition any message of a multi-definition PGN is read by. The intended rule is proved for all of them but 130816 and 130820; false for those two (no message at all is read as the text message of Simrad: C47_text_false), and unmatched messages get the next PGN.')
n('C52','partial',['C52_import','C52_order','C52_multiple','C52_false'],'All parts proved except rejection of malformed lines, which is false.')
c('C79','proved',['Argo.Nmea2k.C79_marshal','Argo.Json.C79_json','Argo.Json.C79_total'],'Float texts are a parameter (any JSON number); C79_total is for messages decoded with the shipped table.')
n('C100','partial',['C100_partial','C100_any_partial','C100_fields','C100_fits','C100_false','C100_recover','C100_ambiguous_false'],'Proved for all fields that look their number up and for manufacturers; false for 19 fields that have a table but are decoded as numbers; in five tables a name does not determine the number.')
n('C101','partial',['C101_claim','C101_partial','C101_false','C101_false_names'],'All fields but the device function are decoded by their tables; the function is shown as empty text unless its number is 0.')
c('C117','partial',['Argo.Nmea2k.'+x for x in ['C117_partial','C117_satisfied','C117_decoded','C117_origin','C117_start','C117_false']],'Every PGN but 60928 (C101) and every message: the entries are the fields of the definition returned, decoded at their places, except the entries of Spec.misread, for each of which it is false (C117_false); with the constraints of the definition satisfied there is no exception (C117_satisfied). C117_origin says which definition an entry was decoded with in every case. Messages returned as the definition after the last of their PGN (C47) are left open.')
