H='Argo.Http.'
c('C129','partial',[H+x for x in ['C129_pages','C129_uuid','C129_data','C129_index_false','C129_details_false','C129_xml_false']],
  'Pages and the UUID are labelled correctly and no data is labelled as HTML (C129_data), for all inputs; false of the API: every JSON reply of the index and the details (C129_index_false, C129_details_false) and every XML reply (C129_xml_false) is labelled as plain text. net/http is modelled from its documentation and source as remembered, it is not in /repo. Files of apps and assets, redirects and error pages of net/http are not modelled.')
