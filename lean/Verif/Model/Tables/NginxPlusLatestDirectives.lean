import Verif.Model.Tables.Bits
/-!
# analyze_nplus_latest_directives.gen.go: `nginxPlusLatestDirectives`, `MatchNginxPlusLatest`

Generated from /repo/analyze_nplus_latest_directives.gen.go:18 by scripts/gen_tables.py (text translation, same order).
-/
namespace Verif

/-- analyze_nplus_latest_directives.gen.go `nginxPlusLatestDirectives`, entries 1-100. -/
def nginxPlusLatestDirectives_0 : List (String × List Nat) := [
  ("absolute_redirect", [bits [ngxHTTPMainConf, ngxHTTPSrvConf, ngxHTTPLocConf, ngxConfFlag]]),
  ("accept_mutex", [bits [ngxEventConf, ngxConfFlag]]),
  ("accept_mutex_delay", [bits [ngxEventConf, ngxConfTake1]]),
  ("access_log", [bits [ngxHTTPMainConf, ngxHTTPSrvConf, ngxHTTPLocConf, ngxHTTPLifConf, ngxHTTPLmtConf, ngxConf1More], bits [ngxStreamMainConf, ngxStreamSrvConf, ngxConf1More]]),
  ("add_after_body", [bits [ngxHTTPMainConf, ngxHTTPSrvConf, ngxHTTPLocConf, ngxConfTake1]]),
  ("add_before_body", [bits [ngxHTTPMainConf, ngxHTTPSrvConf, ngxHTTPLocConf, ngxConfTake1]]),
  ("add_header", [bits [ngxHTTPMainConf, ngxHTTPSrvConf, ngxHTTPLocConf, ngxHTTPLifConf, ngxConfTake23]]),
  ("add_header_inherit", [bits [ngxHTTPMainConf, ngxHTTPSrvConf, ngxHTTPLocConf, ngxHTTPLifConf, ngxConfTake1]]),
  ("add_trailer", [bits [ngxHTTPMainConf, ngxHTTPSrvConf, ngxHTTPLocConf, ngxHTTPLifConf, ngxConfTake23]]),
  ("add_trailer_inherit", [bits [ngxHTTPMainConf, ngxHTTPSrvConf, ngxHTTPLocConf, ngxHTTPLifConf, ngxConfTake1]]),
  ("addition_types", [bits [ngxHTTPMainConf, ngxHTTPSrvConf, ngxHTTPLocConf, ngxConf1More]]),
  ("aio", [bits [ngxHTTPMainConf, ngxHTTPSrvConf, ngxHTTPLocConf, ngxConfTake1]]),
  ("aio_write", [bits [ngxHTTPMainConf, ngxHTTPSrvConf, ngxHTTPLocConf, ngxConfFlag]]),
  ("alias", [bits [ngxHTTPLocConf, ngxConfTake1]]),
  ("allow", [bits [ngxHTTPMainConf, ngxHTTPSrvConf, ngxHTTPLocConf, ngxHTTPLmtConf, ngxConfTake1], bits [ngxStreamMainConf, ngxStreamSrvConf, ngxConfTake1]]),
  ("ancient_browser", [bits [ngxHTTPMainConf, ngxHTTPSrvConf, ngxHTTPLocConf, ngxConf1More]]),
  ("ancient_browser_value", [bits [ngxHTTPMainConf, ngxHTTPSrvConf, ngxHTTPLocConf, ngxConfTake1]]),
  ("api", [bits [ngxHTTPLocConf, ngxConfNoArgs, ngxConfTake1]]),
  ("auth_basic", [bits [ngxHTTPMainConf, ngxHTTPSrvConf, ngxHTTPLocConf, ngxHTTPLmtConf, ngxConfTake1]]),
  ("auth_basic_user_file", [bits [ngxHTTPMainConf, ngxHTTPSrvConf, ngxHTTPLocConf, ngxHTTPLmtConf, ngxConfTake1]]),
  ("auth_delay", [bits [ngxHTTPMainConf, ngxHTTPSrvConf, ngxHTTPLocConf, ngxConfTake1]]),
  ("auth_http", [bits [ngxMailMainConf, ngxMailSrvConf, ngxConfTake1]]),
  ("auth_http_header", [bits [ngxMailMainConf, ngxMailSrvConf, ngxConfTake2]]),
  ("auth_http_pass_client_cert", [bits [ngxMailMainConf, ngxMailSrvConf, ngxConfFlag]]),
  ("auth_http_timeout", [bits [ngxMailMainConf, ngxMailSrvConf, ngxConfTake1]]),
  ("auth_jwt", [bits [ngxHTTPMainConf, ngxHTTPSrvConf, ngxHTTPLocConf, ngxHTTPLmtConf, ngxConfTake12]]),
  ("auth_jwt_claim_set", [bits [ngxHTTPMainConf, ngxConf2More]]),
  ("auth_jwt_header_set", [bits [ngxHTTPMainConf, ngxConf2More]]),
  ("auth_jwt_key_cache", [bits [ngxHTTPMainConf, ngxHTTPSrvConf, ngxHTTPLocConf, ngxHTTPLmtConf, ngxConfTake1]]),
  ("auth_jwt_key_file", [bits [ngxHTTPMainConf, ngxHTTPSrvConf, ngxHTTPLocConf, ngxHTTPLmtConf, ngxConfTake1]]),
  ("auth_jwt_key_request", [bits [ngxHTTPMainConf, ngxHTTPSrvConf, ngxHTTPLocConf, ngxHTTPLmtConf, ngxConfTake1]]),
  ("auth_jwt_leeway", [bits [ngxHTTPMainConf, ngxHTTPSrvConf, ngxHTTPLocConf, ngxHTTPLmtConf, ngxConfTake1]]),
  ("auth_jwt_require", [bits [ngxHTTPMainConf, ngxHTTPSrvConf, ngxHTTPLocConf, ngxHTTPLmtConf, ngxConf1More]]),
  ("auth_jwt_type", [bits [ngxHTTPMainConf, ngxHTTPSrvConf, ngxHTTPLocConf, ngxHTTPLmtConf, ngxConfTake1]]),
  ("auth_oidc", [bits [ngxHTTPMainConf, ngxHTTPSrvConf, ngxHTTPLocConf, ngxConfTake1]]),
  ("auth_request", [bits [ngxHTTPMainConf, ngxHTTPSrvConf, ngxHTTPLocConf, ngxConfTake1]]),
  ("auth_request_set", [bits [ngxHTTPMainConf, ngxHTTPSrvConf, ngxHTTPLocConf, ngxConfTake2]]),
  ("auth_require", [bits [ngxHTTPMainConf, ngxHTTPSrvConf, ngxHTTPLocConf, ngxHTTPLmtConf, ngxConf1More]]),
  ("autoindex", [bits [ngxHTTPMainConf, ngxHTTPSrvConf, ngxHTTPLocConf, ngxConfFlag]]),
  ("autoindex_exact_size", [bits [ngxHTTPMainConf, ngxHTTPSrvConf, ngxHTTPLocConf, ngxConfFlag]]),
  ("autoindex_format", [bits [ngxHTTPMainConf, ngxHTTPSrvConf, ngxHTTPLocConf, ngxConfTake1]]),
  ("autoindex_localtime", [bits [ngxHTTPMainConf, ngxHTTPSrvConf, ngxHTTPLocConf, ngxConfFlag]]),
  ("break", [bits [ngxHTTPSrvConf, ngxHTTPSifConf, ngxHTTPLocConf, ngxHTTPLifConf, ngxConfNoArgs]]),
  ("charset", [bits [ngxHTTPMainConf, ngxHTTPSrvConf, ngxHTTPLocConf, ngxHTTPLifConf, ngxConfTake1]]),
  ("charset_map", [bits [ngxHTTPMainConf, ngxConfBlock, ngxConfTake2]]),
  ("charset_types", [bits [ngxHTTPMainConf, ngxHTTPSrvConf, ngxHTTPLocConf, ngxConf1More]]),
  ("chunked_transfer_encoding", [bits [ngxHTTPMainConf, ngxHTTPSrvConf, ngxHTTPLocConf, ngxConfFlag]]),
  ("client_body_buffer_size", [bits [ngxHTTPMainConf, ngxHTTPSrvConf, ngxHTTPLocConf, ngxConfTake1]]),
  ("client_body_in_file_only", [bits [ngxHTTPMainConf, ngxHTTPSrvConf, ngxHTTPLocConf, ngxConfTake1]]),
  ("client_body_in_single_buffer", [bits [ngxHTTPMainConf, ngxHTTPSrvConf, ngxHTTPLocConf, ngxConfFlag]]),
  ("client_body_temp_path", [bits [ngxHTTPMainConf, ngxHTTPSrvConf, ngxHTTPLocConf, ngxConfTake1234]]),
  ("client_body_timeout", [bits [ngxHTTPMainConf, ngxHTTPSrvConf, ngxHTTPLocConf, ngxConfTake1]]),
  ("client_header_buffer_size", [bits [ngxHTTPMainConf, ngxHTTPSrvConf, ngxConfTake1]]),
  ("client_header_timeout", [bits [ngxHTTPMainConf, ngxHTTPSrvConf, ngxConfTake1]]),
  ("client_id", [bits [ngxHTTPOIDCConf, ngxConfTake1]]),
  ("client_max_body_size", [bits [ngxHTTPMainConf, ngxHTTPSrvConf, ngxHTTPLocConf, ngxConfTake1]]),
  ("client_secret", [bits [ngxHTTPOIDCConf, ngxConfTake1]]),
  ("config_url", [bits [ngxHTTPOIDCConf, ngxConfTake1]]),
  ("connect_timeout", [bits [ngxMgmtMainConf, ngxConfTake1]]),
  ("connection_pool_size", [bits [ngxHTTPMainConf, ngxHTTPSrvConf, ngxConfTake1]]),
  ("cookie_name", [bits [ngxHTTPOIDCConf, ngxConfTake1]]),
  ("create_full_put_path", [bits [ngxHTTPMainConf, ngxHTTPSrvConf, ngxHTTPLocConf, ngxConfFlag]]),
  ("daemon", [bits [ngxMainConf, ngxDirectConf, ngxConfFlag]]),
  ("dav_access", [bits [ngxHTTPMainConf, ngxHTTPSrvConf, ngxHTTPLocConf, ngxConfTake123]]),
  ("dav_methods", [bits [ngxHTTPMainConf, ngxHTTPSrvConf, ngxHTTPLocConf, ngxConf1More]]),
  ("debug_connection", [bits [ngxEventConf, ngxConfTake1]]),
  ("debug_points", [bits [ngxMainConf, ngxDirectConf, ngxConfTake1]]),
  ("default_type", [bits [ngxHTTPMainConf, ngxHTTPSrvConf, ngxHTTPLocConf, ngxConfTake1]]),
  ("deny", [bits [ngxHTTPMainConf, ngxHTTPSrvConf, ngxHTTPLocConf, ngxHTTPLmtConf, ngxConfTake1], bits [ngxStreamMainConf, ngxStreamSrvConf, ngxConfTake1]]),
  ("directio", [bits [ngxHTTPMainConf, ngxHTTPSrvConf, ngxHTTPLocConf, ngxConfTake1]]),
  ("directio_alignment", [bits [ngxHTTPMainConf, ngxHTTPSrvConf, ngxHTTPLocConf, ngxConfTake1]]),
  ("disable_symlinks", [bits [ngxHTTPMainConf, ngxHTTPSrvConf, ngxHTTPLocConf, ngxConfTake12]]),
  ("early_hints", [bits [ngxHTTPMainConf, ngxHTTPSrvConf, ngxHTTPLocConf, ngxConf1More]]),
  ("empty_gif", [bits [ngxHTTPLocConf, ngxConfNoArgs]]),
  ("enforce_initial_report", [bits [ngxMgmtMainConf, ngxConfFlag]]),
  ("env", [bits [ngxMainConf, ngxDirectConf, ngxConfTake1]]),
  ("error_log", [bits [ngxMainConf, ngxConf1More], bits [ngxHTTPMainConf, ngxHTTPSrvConf, ngxHTTPLocConf, ngxConf1More], bits [ngxMailMainConf, ngxMailSrvConf, ngxConf1More], bits [ngxStreamMainConf, ngxStreamSrvConf, ngxConf1More]]),
  ("error_log_tag", [bits [ngxHTTPMainConf, ngxHTTPSrvConf, ngxHTTPLocConf, ngxConfTake2]]),
  ("error_page", [bits [ngxHTTPMainConf, ngxHTTPSrvConf, ngxHTTPLocConf, ngxHTTPLifConf, ngxConf2More]]),
  ("etag", [bits [ngxHTTPMainConf, ngxHTTPSrvConf, ngxHTTPLocConf, ngxConfFlag]]),
  ("events", [bits [ngxMainConf, ngxConfBlock, ngxConfNoArgs]]),
  ("expires", [bits [ngxHTTPMainConf, ngxHTTPSrvConf, ngxHTTPLocConf, ngxHTTPLifConf, ngxConfTake12]]),
  ("extra_auth_args", [bits [ngxHTTPOIDCConf, ngxConfTake1]]),
  ("f4f", [bits [ngxHTTPLocConf, ngxConfNoArgs]]),
  ("f4f_buffer_size", [bits [ngxHTTPMainConf, ngxHTTPSrvConf, ngxHTTPLocConf, ngxConfTake1]]),
  ("fastcgi_allow_upstream", [bits [ngxHTTPMainConf, ngxHTTPSrvConf, ngxHTTPLocConf, ngxConf1More]]),
  ("fastcgi_bind", [bits [ngxHTTPMainConf, ngxHTTPSrvConf, ngxHTTPLocConf, ngxConfTake12]]),
  ("fastcgi_bind_dynamic", [bits [ngxHTTPMainConf, ngxHTTPSrvConf, ngxHTTPLocConf, ngxConfFlag]]),
  ("fastcgi_buffer_size", [bits [ngxHTTPMainConf, ngxHTTPSrvConf, ngxHTTPLocConf, ngxConfTake1]]),
  ("fastcgi_buffering", [bits [ngxHTTPMainConf, ngxHTTPSrvConf, ngxHTTPLocConf, ngxConfFlag]]),
  ("fastcgi_buffers", [bits [ngxHTTPMainConf, ngxHTTPSrvConf, ngxHTTPLocConf, ngxConfTake2]]),
  ("fastcgi_busy_buffers_size", [bits [ngxHTTPMainConf, ngxHTTPSrvConf, ngxHTTPLocConf, ngxConfTake1]]),
  ("fastcgi_cache", [bits [ngxHTTPMainConf, ngxHTTPSrvConf, ngxHTTPLocConf, ngxConfTake1]]),
  ("fastcgi_cache_background_update", [bits [ngxHTTPMainConf, ngxHTTPSrvConf, ngxHTTPLocConf, ngxConfFlag]]),
  ("fastcgi_cache_bypass", [bits [ngxHTTPMainConf, ngxHTTPSrvConf, ngxHTTPLocConf, ngxConf1More]]),
  ("fastcgi_cache_key", [bits [ngxHTTPMainConf, ngxHTTPSrvConf, ngxHTTPLocConf, ngxConfTake1]]),
  ("fastcgi_cache_lock", [bits [ngxHTTPMainConf, ngxHTTPSrvConf, ngxHTTPLocConf, ngxConfFlag]]),
  ("fastcgi_cache_lock_age", [bits [ngxHTTPMainConf, ngxHTTPSrvConf, ngxHTTPLocConf, ngxConfTake1]]),
  ("fastcgi_cache_lock_timeout", [bits [ngxHTTPMainConf, ngxHTTPSrvConf, ngxHTTPLocConf, ngxConfTake1]]),
  ("fastcgi_cache_max_range_offset", [bits [ngxHTTPMainConf, ngxHTTPSrvConf, ngxHTTPLocConf, ngxConfTake1]])]

/-- analyze_nplus_latest_directives.gen.go `nginxPlusLatestDirectives`, entries 101-200. -/
def nginxPlusLatestDirectives_1 : List (String × List Nat) := [
  ("fastcgi_cache_methods", [bits [ngxHTTPMainConf, ngxHTTPSrvConf, ngxHTTPLocConf, ngxConf1More]]),
  ("fastcgi_cache_min_uses", [bits [ngxHTTPMainConf, ngxHTTPSrvConf, ngxHTTPLocConf, ngxConfTake1]]),
  ("fastcgi_cache_path", [bits [ngxHTTPMainConf, ngxConf2More]]),
  ("fastcgi_cache_purge", [bits [ngxHTTPMainConf, ngxHTTPSrvConf, ngxHTTPLocConf, ngxConf1More]]),
  ("fastcgi_cache_revalidate", [bits [ngxHTTPMainConf, ngxHTTPSrvConf, ngxHTTPLocConf, ngxConfFlag]]),
  ("fastcgi_cache_use_stale", [bits [ngxHTTPMainConf, ngxHTTPSrvConf, ngxHTTPLocConf, ngxConf1More]]),
  ("fastcgi_cache_valid", [bits [ngxHTTPMainConf, ngxHTTPSrvConf, ngxHTTPLocConf, ngxConf1More]]),
  ("fastcgi_catch_stderr", [bits [ngxHTTPMainConf, ngxHTTPSrvConf, ngxHTTPLocConf, ngxConfTake1]]),
  ("fastcgi_connect_timeout", [bits [ngxHTTPMainConf, ngxHTTPSrvConf, ngxHTTPLocConf, ngxConfTake1]]),
  ("fastcgi_force_ranges", [bits [ngxHTTPMainConf, ngxHTTPSrvConf, ngxHTTPLocConf, ngxConfFlag]]),
  ("fastcgi_hide_header", [bits [ngxHTTPMainConf, ngxHTTPSrvConf, ngxHTTPLocConf, ngxConfTake1]]),
  ("fastcgi_ignore_client_abort", [bits [ngxHTTPMainConf, ngxHTTPSrvConf, ngxHTTPLocConf, ngxConfFlag]]),
  ("fastcgi_ignore_headers", [bits [ngxHTTPMainConf, ngxHTTPSrvConf, ngxHTTPLocConf, ngxConf1More]]),
  ("fastcgi_index", [bits [ngxHTTPMainConf, ngxHTTPSrvConf, ngxHTTPLocConf, ngxConfTake1]]),
  ("fastcgi_intercept_errors", [bits [ngxHTTPMainConf, ngxHTTPSrvConf, ngxHTTPLocConf, ngxConfFlag]]),
  ("fastcgi_keep_conn", [bits [ngxHTTPMainConf, ngxHTTPSrvConf, ngxHTTPLocConf, ngxConfFlag]]),
  ("fastcgi_limit_rate", [bits [ngxHTTPMainConf, ngxHTTPSrvConf, ngxHTTPLocConf, ngxConfTake1]]),
  ("fastcgi_max_temp_file_size", [bits [ngxHTTPMainConf, ngxHTTPSrvConf, ngxHTTPLocConf, ngxConfTake1]]),
  ("fastcgi_next_upstream", [bits [ngxHTTPMainConf, ngxHTTPSrvConf, ngxHTTPLocConf, ngxConf1More]]),
  ("fastcgi_next_upstream_timeout", [bits [ngxHTTPMainConf, ngxHTTPSrvConf, ngxHTTPLocConf, ngxConfTake1]]),
  ("fastcgi_next_upstream_tries", [bits [ngxHTTPMainConf, ngxHTTPSrvConf, ngxHTTPLocConf, ngxConfTake1]]),
  ("fastcgi_no_cache", [bits [ngxHTTPMainConf, ngxHTTPSrvConf, ngxHTTPLocConf, ngxConf1More]]),
  ("fastcgi_param", [bits [ngxHTTPMainConf, ngxHTTPSrvConf, ngxHTTPLocConf, ngxConfTake23]]),
  ("fastcgi_pass", [bits [ngxHTTPLocConf, ngxHTTPLifConf, ngxConfTake1]]),
  ("fastcgi_pass_header", [bits [ngxHTTPMainConf, ngxHTTPSrvConf, ngxHTTPLocConf, ngxConfTake1]]),
  ("fastcgi_pass_request_body", [bits [ngxHTTPMainConf, ngxHTTPSrvConf, ngxHTTPLocConf, ngxConfFlag]]),
  ("fastcgi_pass_request_headers", [bits [ngxHTTPMainConf, ngxHTTPSrvConf, ngxHTTPLocConf, ngxConfFlag]]),
  ("fastcgi_read_timeout", [bits [ngxHTTPMainConf, ngxHTTPSrvConf, ngxHTTPLocConf, ngxConfTake1]]),
  ("fastcgi_request_buffering", [bits [ngxHTTPMainConf, ngxHTTPSrvConf, ngxHTTPLocConf, ngxConfFlag]]),
  ("fastcgi_request_dynamic", [bits [ngxHTTPMainConf, ngxHTTPSrvConf, ngxHTTPLocConf, ngxConfFlag]]),
  ("fastcgi_send_lowat", [bits [ngxHTTPMainConf, ngxHTTPSrvConf, ngxHTTPLocConf, ngxConfTake1]]),
  ("fastcgi_send_timeout", [bits [ngxHTTPMainConf, ngxHTTPSrvConf, ngxHTTPLocConf, ngxConfTake1]]),
  ("fastcgi_socket_keepalive", [bits [ngxHTTPMainConf, ngxHTTPSrvConf, ngxHTTPLocConf, ngxConfFlag]]),
  ("fastcgi_split_path_info", [bits [ngxHTTPMainConf, ngxHTTPSrvConf, ngxHTTPLocConf, ngxConfTake1]]),
  ("fastcgi_store", [bits [ngxHTTPMainConf, ngxHTTPSrvConf, ngxHTTPLocConf, ngxConfTake1]]),
  ("fastcgi_store_access", [bits [ngxHTTPMainConf, ngxHTTPSrvConf, ngxHTTPLocConf, ngxConfTake123]]),
  ("fastcgi_temp_file_write_size", [bits [ngxHTTPMainConf, ngxHTTPSrvConf, ngxHTTPLocConf, ngxConfTake1]]),
  ("fastcgi_temp_path", [bits [ngxHTTPMainConf, ngxHTTPSrvConf, ngxHTTPLocConf, ngxConfTake1234]]),
  ("flv", [bits [ngxHTTPLocConf, ngxConfNoArgs]]),
  ("frontchannel_logout_uri", [bits [ngxHTTPOIDCConf, ngxConfTake1]]),
  ("geo", [bits [ngxHTTPMainConf, ngxConfBlock, ngxConfTake12], bits [ngxStreamMainConf, ngxConfBlock, ngxConfTake12]]),
  ("geoip_city", [bits [ngxHTTPMainConf, ngxConfTake12], bits [ngxStreamMainConf, ngxConfTake12]]),
  ("geoip_country", [bits [ngxHTTPMainConf, ngxConfTake12], bits [ngxStreamMainConf, ngxConfTake12]]),
  ("geoip_org", [bits [ngxHTTPMainConf, ngxConfTake12], bits [ngxStreamMainConf, ngxConfTake12]]),
  ("geoip_proxy", [bits [ngxHTTPMainConf, ngxConfTake1]]),
  ("geoip_proxy_recursive", [bits [ngxHTTPMainConf, ngxConfFlag]]),
  ("google_perftools_profiles", [bits [ngxMainConf, ngxDirectConf, ngxConfTake1]]),
  ("grpc_allow_upstream", [bits [ngxHTTPMainConf, ngxHTTPSrvConf, ngxHTTPLocConf, ngxConf1More]]),
  ("grpc_bind", [bits [ngxHTTPMainConf, ngxHTTPSrvConf, ngxHTTPLocConf, ngxConfTake12]]),
  ("grpc_bind_dynamic", [bits [ngxHTTPMainConf, ngxHTTPSrvConf, ngxHTTPLocConf, ngxConfFlag]]),
  ("grpc_buffer_size", [bits [ngxHTTPMainConf, ngxHTTPSrvConf, ngxHTTPLocConf, ngxConfTake1]]),
  ("grpc_connect_timeout", [bits [ngxHTTPMainConf, ngxHTTPSrvConf, ngxHTTPLocConf, ngxConfTake1]]),
  ("grpc_hide_header", [bits [ngxHTTPMainConf, ngxHTTPSrvConf, ngxHTTPLocConf, ngxConfTake1]]),
  ("grpc_ignore_headers", [bits [ngxHTTPMainConf, ngxHTTPSrvConf, ngxHTTPLocConf, ngxConf1More]]),
  ("grpc_intercept_errors", [bits [ngxHTTPMainConf, ngxHTTPSrvConf, ngxHTTPLocConf, ngxConfFlag]]),
  ("grpc_next_upstream", [bits [ngxHTTPMainConf, ngxHTTPSrvConf, ngxHTTPLocConf, ngxConf1More]]),
  ("grpc_next_upstream_timeout", [bits [ngxHTTPMainConf, ngxHTTPSrvConf, ngxHTTPLocConf, ngxConfTake1]]),
  ("grpc_next_upstream_tries", [bits [ngxHTTPMainConf, ngxHTTPSrvConf, ngxHTTPLocConf, ngxConfTake1]]),
  ("grpc_pass", [bits [ngxHTTPLocConf, ngxHTTPLifConf, ngxConfTake1]]),
  ("grpc_pass_header", [bits [ngxHTTPMainConf, ngxHTTPSrvConf, ngxHTTPLocConf, ngxConfTake1]]),
  ("grpc_read_timeout", [bits [ngxHTTPMainConf, ngxHTTPSrvConf, ngxHTTPLocConf, ngxConfTake1]]),
  ("grpc_request_dynamic", [bits [ngxHTTPMainConf, ngxHTTPSrvConf, ngxHTTPLocConf, ngxConfFlag]]),
  ("grpc_send_timeout", [bits [ngxHTTPMainConf, ngxHTTPSrvConf, ngxHTTPLocConf, ngxConfTake1]]),
  ("grpc_set_header", [bits [ngxHTTPMainConf, ngxHTTPSrvConf, ngxHTTPLocConf, ngxConfTake2]]),
  ("grpc_socket_keepalive", [bits [ngxHTTPMainConf, ngxHTTPSrvConf, ngxHTTPLocConf, ngxConfFlag]]),
  ("grpc_ssl_certificate", [bits [ngxHTTPMainConf, ngxHTTPSrvConf, ngxHTTPLocConf, ngxConfTake1]]),
  ("grpc_ssl_certificate_cache", [bits [ngxHTTPMainConf, ngxHTTPSrvConf, ngxHTTPLocConf, ngxConfTake123]]),
  ("grpc_ssl_certificate_key", [bits [ngxHTTPMainConf, ngxHTTPSrvConf, ngxHTTPLocConf, ngxConfTake1]]),
  ("grpc_ssl_ciphers", [bits [ngxHTTPMainConf, ngxHTTPSrvConf, ngxHTTPLocConf, ngxConfTake1]]),
  ("grpc_ssl_conf_command", [bits [ngxHTTPMainConf, ngxHTTPSrvConf, ngxHTTPLocConf, ngxConfTake2]]),
  ("grpc_ssl_crl", [bits [ngxHTTPMainConf, ngxHTTPSrvConf, ngxHTTPLocConf, ngxConfTake1]]),
  ("grpc_ssl_key_log", [bits [ngxHTTPMainConf, ngxHTTPSrvConf, ngxHTTPLocConf, ngxConfTake1]]),
  ("grpc_ssl_name", [bits [ngxHTTPMainConf, ngxHTTPSrvConf, ngxHTTPLocConf, ngxConfTake1]]),
  ("grpc_ssl_password_file", [bits [ngxHTTPMainConf, ngxHTTPSrvConf, ngxHTTPLocConf, ngxConfTake1]]),
  ("grpc_ssl_protocols", [bits [ngxHTTPMainConf, ngxHTTPSrvConf, ngxHTTPLocConf, ngxConf1More]]),
  ("grpc_ssl_server_name", [bits [ngxHTTPMainConf, ngxHTTPSrvConf, ngxHTTPLocConf, ngxConfFlag]]),
  ("grpc_ssl_session_reuse", [bits [ngxHTTPMainConf, ngxHTTPSrvConf, ngxHTTPLocConf, ngxConfFlag]]),
  ("grpc_ssl_trusted_certificate", [bits [ngxHTTPMainConf, ngxHTTPSrvConf, ngxHTTPLocConf, ngxConfTake1]]),
  ("grpc_ssl_verify", [bits [ngxHTTPMainConf, ngxHTTPSrvConf, ngxHTTPLocConf, ngxConfFlag]]),
  ("grpc_ssl_verify_depth", [bits [ngxHTTPMainConf, ngxHTTPSrvConf, ngxHTTPLocConf, ngxConfTake1]]),
  ("gunzip", [bits [ngxHTTPMainConf, ngxHTTPSrvConf, ngxHTTPLocConf, ngxConfFlag]]),
  ("gunzip_buffers", [bits [ngxHTTPMainConf, ngxHTTPSrvConf, ngxHTTPLocConf, ngxConfTake2]]),
  ("gzip", [bits [ngxHTTPMainConf, ngxHTTPSrvConf, ngxHTTPLocConf, ngxHTTPLifConf, ngxConfFlag]]),
  ("gzip_buffers", [bits [ngxHTTPMainConf, ngxHTTPSrvConf, ngxHTTPLocConf, ngxConfTake2]]),
  ("gzip_comp_level", [bits [ngxHTTPMainConf, ngxHTTPSrvConf, ngxHTTPLocConf, ngxConfTake1]]),
  ("gzip_disable", [bits [ngxHTTPMainConf, ngxHTTPSrvConf, ngxHTTPLocConf, ngxConf1More]]),
  ("gzip_http_version", [bits [ngxHTTPMainConf, ngxHTTPSrvConf, ngxHTTPLocConf, ngxConfTake1]]),
  ("gzip_min_length", [bits [ngxHTTPMainConf, ngxHTTPSrvConf, ngxHTTPLocConf, ngxConfTake1]]),
  ("gzip_proxied", [bits [ngxHTTPMainConf, ngxHTTPSrvConf, ngxHTTPLocConf, ngxConf1More]]),
  ("gzip_static", [bits [ngxHTTPMainConf, ngxHTTPSrvConf, ngxHTTPLocConf, ngxConfTake1]]),
  ("gzip_types", [bits [ngxHTTPMainConf, ngxHTTPSrvConf, ngxHTTPLocConf, ngxConf1More]]),
  ("gzip_vary", [bits [ngxHTTPMainConf, ngxHTTPSrvConf, ngxHTTPLocConf, ngxConfFlag]]),
  ("hash", [bits [ngxHTTPUpsConf, ngxConfTake12], bits [ngxStreamUpsConf, ngxConfTake12]]),
  ("health_check", [bits [ngxHTTPLocConf, ngxConfAny], bits [ngxStreamSrvConf, ngxConfAny]]),
  ("health_check_timeout", [bits [ngxStreamMainConf, ngxStreamSrvConf, ngxConfTake1]]),
  ("hls", [bits [ngxHTTPLocConf, ngxConfNoArgs]]),
  ("hls_buffers", [bits [ngxHTTPMainConf, ngxHTTPSrvConf, ngxHTTPLocConf, ngxConfTake2]]),
  ("hls_forward_args", [bits [ngxHTTPMainConf, ngxHTTPSrvConf, ngxHTTPLocConf, ngxConfFlag]]),
  ("hls_fragment", [bits [ngxHTTPMainConf, ngxHTTPSrvConf, ngxHTTPLocConf, ngxConfTake1]]),
  ("hls_mp4_buffer_size", [bits [ngxHTTPMainConf, ngxHTTPSrvConf, ngxHTTPLocConf, ngxConfTake1]])]

/-- analyze_nplus_latest_directives.gen.go `nginxPlusLatestDirectives`, entries 201-300. -/
def nginxPlusLatestDirectives_2 : List (String × List Nat) := [
  ("hls_mp4_max_buffer_size", [bits [ngxHTTPMainConf, ngxHTTPSrvConf, ngxHTTPLocConf, ngxConfTake1]]),
  ("http", [bits [ngxMainConf, ngxConfBlock, ngxConfNoArgs]]),
  ("http2", [bits [ngxHTTPMainConf, ngxHTTPSrvConf, ngxConfFlag]]),
  ("http2_body_preread_size", [bits [ngxHTTPMainConf, ngxHTTPSrvConf, ngxConfTake1]]),
  ("http2_chunk_size", [bits [ngxHTTPMainConf, ngxHTTPSrvConf, ngxHTTPLocConf, ngxConfTake1]]),
  ("http2_idle_timeout", [bits [ngxHTTPMainConf, ngxHTTPSrvConf, ngxConfTake1]]),
  ("http2_max_concurrent_pushes", [bits [ngxHTTPMainConf, ngxHTTPSrvConf, ngxConfTake1]]),
  ("http2_max_concurrent_streams", [bits [ngxHTTPMainConf, ngxHTTPSrvConf, ngxConfTake1]]),
  ("http2_max_field_size", [bits [ngxHTTPMainConf, ngxHTTPSrvConf, ngxConfTake1]]),
  ("http2_max_header_size", [bits [ngxHTTPMainConf, ngxHTTPSrvConf, ngxConfTake1]]),
  ("http2_max_requests", [bits [ngxHTTPMainConf, ngxHTTPSrvConf, ngxConfTake1]]),
  ("http2_push", [bits [ngxHTTPMainConf, ngxHTTPSrvConf, ngxHTTPLocConf, ngxConfTake1]]),
  ("http2_push_preload", [bits [ngxHTTPMainConf, ngxHTTPSrvConf, ngxHTTPLocConf, ngxConfFlag]]),
  ("http2_recv_buffer_size", [bits [ngxHTTPMainConf, ngxConfTake1]]),
  ("http2_recv_timeout", [bits [ngxHTTPMainConf, ngxHTTPSrvConf, ngxConfTake1]]),
  ("http3", [bits [ngxHTTPMainConf, ngxHTTPSrvConf, ngxConfFlag]]),
  ("http3_hq", [bits [ngxHTTPMainConf, ngxHTTPSrvConf, ngxConfFlag]]),
  ("http3_max_concurrent_streams", [bits [ngxHTTPMainConf, ngxHTTPSrvConf, ngxConfTake1]]),
  ("http3_stream_buffer_size", [bits [ngxHTTPMainConf, ngxHTTPSrvConf, ngxConfTake1]]),
  ("if", [bits [ngxHTTPSrvConf, ngxHTTPLocConf, ngxConfBlock, ngxConfExpr, ngxConf1More]]),
  ("if_modified_since", [bits [ngxHTTPMainConf, ngxHTTPSrvConf, ngxHTTPLocConf, ngxConfTake1]]),
  ("ignore_invalid_headers", [bits [ngxHTTPMainConf, ngxHTTPSrvConf, ngxConfFlag]]),
  ("image_filter", [bits [ngxHTTPLocConf, ngxConfTake123]]),
  ("image_filter_buffer", [bits [ngxHTTPMainConf, ngxHTTPSrvConf, ngxHTTPLocConf, ngxConfTake1]]),
  ("image_filter_interlace", [bits [ngxHTTPMainConf, ngxHTTPSrvConf, ngxHTTPLocConf, ngxConfFlag]]),
  ("image_filter_jpeg_quality", [bits [ngxHTTPMainConf, ngxHTTPSrvConf, ngxHTTPLocConf, ngxConfTake1]]),
  ("image_filter_sharpen", [bits [ngxHTTPMainConf, ngxHTTPSrvConf, ngxHTTPLocConf, ngxConfTake1]]),
  ("image_filter_transparency", [bits [ngxHTTPMainConf, ngxHTTPSrvConf, ngxHTTPLocConf, ngxConfFlag]]),
  ("image_filter_webp_quality", [bits [ngxHTTPMainConf, ngxHTTPSrvConf, ngxHTTPLocConf, ngxConfTake1]]),
  ("imap_auth", [bits [ngxMailMainConf, ngxMailSrvConf, ngxConf1More]]),
  ("imap_capabilities", [bits [ngxMailMainConf, ngxMailSrvConf, ngxConf1More]]),
  ("imap_client_buffer", [bits [ngxMailMainConf, ngxMailSrvConf, ngxConfTake1]]),
  ("include", [bits [ngxAnyConf, ngxConfTake1]]),
  ("index", [bits [ngxHTTPMainConf, ngxHTTPSrvConf, ngxHTTPLocConf, ngxConf1More]]),
  ("internal", [bits [ngxHTTPLocConf, ngxConfNoArgs]]),
  ("internal_redirect", [bits [ngxHTTPSrvConf, ngxHTTPLocConf, ngxConfTake1]]),
  ("ip_hash", [bits [ngxHTTPUpsConf, ngxConfNoArgs]]),
  ("issuer", [bits [ngxHTTPOIDCConf, ngxConfTake1]]),
  ("keepalive", [bits [ngxHTTPUpsConf, ngxConfTake12]]),
  ("keepalive_disable", [bits [ngxHTTPMainConf, ngxHTTPSrvConf, ngxHTTPLocConf, ngxConfTake12]]),
  ("keepalive_min_timeout", [bits [ngxHTTPMainConf, ngxHTTPSrvConf, ngxHTTPLocConf, ngxConfTake1]]),
  ("keepalive_requests", [bits [ngxHTTPUpsConf, ngxConfTake1], bits [ngxHTTPMainConf, ngxHTTPSrvConf, ngxHTTPLocConf, ngxConfTake1]]),
  ("keepalive_time", [bits [ngxHTTPUpsConf, ngxConfTake1], bits [ngxHTTPMainConf, ngxHTTPSrvConf, ngxHTTPLocConf, ngxConfTake1]]),
  ("keepalive_timeout", [bits [ngxHTTPUpsConf, ngxConfTake1], bits [ngxHTTPMainConf, ngxHTTPSrvConf, ngxHTTPLocConf, ngxConfTake12]]),
  ("keyval", [bits [ngxHTTPMainConf, ngxConfTake3, ngxConfTake4], bits [ngxStreamMainConf, ngxConfTake3, ngxConfTake4]]),
  ("keyval_zone", [bits [ngxHTTPMainConf, ngxConf1More], bits [ngxStreamMainConf, ngxConf1More]]),
  ("large_client_header_buffers", [bits [ngxHTTPMainConf, ngxHTTPSrvConf, ngxConfTake2]]),
  ("least_conn", [bits [ngxHTTPUpsConf, ngxConfNoArgs], bits [ngxStreamUpsConf, ngxConfNoArgs]]),
  ("least_time", [bits [ngxHTTPUpsConf, ngxConfTake12], bits [ngxStreamUpsConf, ngxConfTake12]]),
  ("license_token", [bits [ngxMgmtMainConf, ngxConfTake1]]),
  ("limit_conn", [bits [ngxHTTPMainConf, ngxHTTPSrvConf, ngxHTTPLocConf, ngxConfTake2], bits [ngxStreamMainConf, ngxStreamSrvConf, ngxConfTake2]]),
  ("limit_conn_dry_run", [bits [ngxHTTPMainConf, ngxHTTPSrvConf, ngxHTTPLocConf, ngxConfFlag], bits [ngxStreamMainConf, ngxStreamSrvConf, ngxConfFlag]]),
  ("limit_conn_log_level", [bits [ngxHTTPMainConf, ngxHTTPSrvConf, ngxHTTPLocConf, ngxConfTake1], bits [ngxStreamMainConf, ngxStreamSrvConf, ngxConfTake1]]),
  ("limit_conn_status", [bits [ngxHTTPMainConf, ngxHTTPSrvConf, ngxHTTPLocConf, ngxConfTake1]]),
  ("limit_conn_zone", [bits [ngxHTTPMainConf, ngxConfTake2], bits [ngxStreamMainConf, ngxConfTake2]]),
  ("limit_except", [bits [ngxHTTPLocConf, ngxConfBlock, ngxConf1More]]),
  ("limit_rate", [bits [ngxHTTPMainConf, ngxHTTPSrvConf, ngxHTTPLocConf, ngxHTTPLifConf, ngxConfTake1]]),
  ("limit_rate_after", [bits [ngxHTTPMainConf, ngxHTTPSrvConf, ngxHTTPLocConf, ngxHTTPLifConf, ngxConfTake1]]),
  ("limit_req", [bits [ngxHTTPMainConf, ngxHTTPSrvConf, ngxHTTPLocConf, ngxConfTake123]]),
  ("limit_req_dry_run", [bits [ngxHTTPMainConf, ngxHTTPSrvConf, ngxHTTPLocConf, ngxConfFlag]]),
  ("limit_req_log_level", [bits [ngxHTTPMainConf, ngxHTTPSrvConf, ngxHTTPLocConf, ngxConfTake1]]),
  ("limit_req_status", [bits [ngxHTTPMainConf, ngxHTTPSrvConf, ngxHTTPLocConf, ngxConfTake1]]),
  ("limit_req_zone", [bits [ngxHTTPMainConf, ngxConfTake3, ngxConfTake4]]),
  ("lingering_close", [bits [ngxHTTPMainConf, ngxHTTPSrvConf, ngxHTTPLocConf, ngxConfTake1]]),
  ("lingering_time", [bits [ngxHTTPMainConf, ngxHTTPSrvConf, ngxHTTPLocConf, ngxConfTake1]]),
  ("lingering_timeout", [bits [ngxHTTPMainConf, ngxHTTPSrvConf, ngxHTTPLocConf, ngxConfTake1]]),
  ("listen", [bits [ngxHTTPSrvConf, ngxConf1More], bits [ngxMailSrvConf, ngxConf1More], bits [ngxStreamSrvConf, ngxConf1More]]),
  ("load_module", [bits [ngxMainConf, ngxDirectConf, ngxConfTake1]]),
  ("location", [bits [ngxHTTPSrvConf, ngxHTTPLocConf, ngxConfBlock, ngxConfTake12]]),
  ("lock_file", [bits [ngxMainConf, ngxDirectConf, ngxConfTake1]]),
  ("log_format", [bits [ngxHTTPMainConf, ngxConf2More], bits [ngxStreamMainConf, ngxConf2More]]),
  ("log_not_found", [bits [ngxHTTPMainConf, ngxHTTPSrvConf, ngxHTTPLocConf, ngxConfFlag]]),
  ("log_subrequest", [bits [ngxHTTPMainConf, ngxHTTPSrvConf, ngxHTTPLocConf, ngxConfFlag]]),
  ("logout_token_hint", [bits [ngxHTTPOIDCConf, ngxConfFlag]]),
  ("logout_uri", [bits [ngxHTTPOIDCConf, ngxConfTake1]]),
  ("mail", [bits [ngxMainConf, ngxConfBlock, ngxConfNoArgs]]),
  ("map", [bits [ngxHTTPMainConf, ngxConfBlock, ngxConfTake2], bits [ngxStreamMainConf, ngxConfBlock, ngxConfTake2]]),
  ("map_hash_bucket_size", [bits [ngxHTTPMainConf, ngxConfTake1], bits [ngxStreamMainConf, ngxConfTake1]]),
  ("map_hash_max_size", [bits [ngxHTTPMainConf, ngxConfTake1], bits [ngxStreamMainConf, ngxConfTake1]]),
  ("master_process", [bits [ngxMainConf, ngxDirectConf, ngxConfFlag]]),
  ("match", [bits [ngxHTTPMainConf, ngxConfBlock, ngxConfTake12], bits [ngxStreamMainConf, ngxConfBlock, ngxConfTake1]]),
  ("max_errors", [bits [ngxMailMainConf, ngxMailSrvConf, ngxConfTake1]]),
  ("max_headers", [bits [ngxHTTPMainConf, ngxHTTPSrvConf, ngxConfTake1]]),
  ("max_ranges", [bits [ngxHTTPMainConf, ngxHTTPSrvConf, ngxHTTPLocConf, ngxConfTake1]]),
  ("memcached_allow_upstream", [bits [ngxHTTPMainConf, ngxHTTPSrvConf, ngxHTTPLocConf, ngxConf1More]]),
  ("memcached_bind", [bits [ngxHTTPMainConf, ngxHTTPSrvConf, ngxHTTPLocConf, ngxConfTake12]]),
  ("memcached_bind_dynamic", [bits [ngxHTTPMainConf, ngxHTTPSrvConf, ngxHTTPLocConf, ngxConfFlag]]),
  ("memcached_buffer_size", [bits [ngxHTTPMainConf, ngxHTTPSrvConf, ngxHTTPLocConf, ngxConfTake1]]),
  ("memcached_connect_timeout", [bits [ngxHTTPMainConf, ngxHTTPSrvConf, ngxHTTPLocConf, ngxConfTake1]]),
  ("memcached_gzip_flag", [bits [ngxHTTPMainConf, ngxHTTPSrvConf, ngxHTTPLocConf, ngxConfTake1]]),
  ("memcached_next_upstream", [bits [ngxHTTPMainConf, ngxHTTPSrvConf, ngxHTTPLocConf, ngxConf1More]]),
  ("memcached_next_upstream_timeout", [bits [ngxHTTPMainConf, ngxHTTPSrvConf, ngxHTTPLocConf, ngxConfTake1]]),
  ("memcached_next_upstream_tries", [bits [ngxHTTPMainConf, ngxHTTPSrvConf, ngxHTTPLocConf, ngxConfTake1]]),
  ("memcached_pass", [bits [ngxHTTPLocConf, ngxHTTPLifConf, ngxConfTake1]]),
  ("memcached_read_timeout", [bits [ngxHTTPMainConf, ngxHTTPSrvConf, ngxHTTPLocConf, ngxConfTake1]]),
  ("memcached_send_timeout", [bits [ngxHTTPMainConf, ngxHTTPSrvConf, ngxHTTPLocConf, ngxConfTake1]]),
  ("memcached_socket_keepalive", [bits [ngxHTTPMainConf, ngxHTTPSrvConf, ngxHTTPLocConf, ngxConfFlag]]),
  ("merge_slashes", [bits [ngxHTTPMainConf, ngxHTTPSrvConf, ngxConfFlag]]),
  ("mgmt", [bits [ngxMainConf, ngxDirectConf, ngxConfBlock, ngxConfNoArgs]]),
  ("min_delete_depth", [bits [ngxHTTPMainConf, ngxHTTPSrvConf, ngxHTTPLocConf, ngxConfTake1]])]

/-- analyze_nplus_latest_directives.gen.go `nginxPlusLatestDirectives`, entries 301-400. -/
def nginxPlusLatestDirectives_3 : List (String × List Nat) := [
  ("mirror", [bits [ngxHTTPMainConf, ngxHTTPSrvConf, ngxHTTPLocConf, ngxConfTake1]]),
  ("mirror_request_body", [bits [ngxHTTPMainConf, ngxHTTPSrvConf, ngxHTTPLocConf, ngxConfFlag]]),
  ("modern_browser", [bits [ngxHTTPMainConf, ngxHTTPSrvConf, ngxHTTPLocConf, ngxConfTake12]]),
  ("modern_browser_value", [bits [ngxHTTPMainConf, ngxHTTPSrvConf, ngxHTTPLocConf, ngxConfTake1]]),
  ("mp4", [bits [ngxHTTPLocConf, ngxConfNoArgs]]),
  ("mp4_buffer_size", [bits [ngxHTTPMainConf, ngxHTTPSrvConf, ngxHTTPLocConf, ngxConfTake1]]),
  ("mp4_limit_rate", [bits [ngxHTTPMainConf, ngxHTTPSrvConf, ngxHTTPLocConf, ngxConfTake1]]),
  ("mp4_limit_rate_after", [bits [ngxHTTPMainConf, ngxHTTPSrvConf, ngxHTTPLocConf, ngxConfTake1]]),
  ("mp4_max_buffer_size", [bits [ngxHTTPMainConf, ngxHTTPSrvConf, ngxHTTPLocConf, ngxConfTake1]]),
  ("mp4_start_key_frame", [bits [ngxHTTPMainConf, ngxHTTPSrvConf, ngxHTTPLocConf, ngxConfFlag]]),
  ("mqtt", [bits [ngxStreamMainConf, ngxStreamSrvConf, ngxConfFlag]]),
  ("mqtt_buffers", [bits [ngxStreamMainConf, ngxStreamSrvConf, ngxConfTake2]]),
  ("mqtt_preread", [bits [ngxStreamMainConf, ngxStreamSrvConf, ngxConfFlag]]),
  ("mqtt_rewrite_buffer_size", [bits [ngxStreamSrvConf, ngxConfFlag]]),
  ("mqtt_set_connect", [bits [ngxStreamSrvConf, ngxConfTake2]]),
  ("msie_padding", [bits [ngxHTTPMainConf, ngxHTTPSrvConf, ngxHTTPLocConf, ngxConfFlag]]),
  ("msie_refresh", [bits [ngxHTTPMainConf, ngxHTTPSrvConf, ngxHTTPLocConf, ngxConfFlag]]),
  ("multi_accept", [bits [ngxEventConf, ngxConfFlag]]),
  ("ntlm", [bits [ngxHTTPUpsConf, ngxConfNoArgs]]),
  ("num_map", [bits [ngxHTTPMainConf, ngxConfBlock, ngxConfTake2], bits [ngxStreamMainConf, ngxConfBlock, ngxConfTake2]]),
  ("oidc_provider", [bits [ngxHTTPMainConf, ngxConfBlock, ngxConfTake1]]),
  ("open_file_cache", [bits [ngxHTTPMainConf, ngxHTTPSrvConf, ngxHTTPLocConf, ngxConfTake12]]),
  ("open_file_cache_errors", [bits [ngxHTTPMainConf, ngxHTTPSrvConf, ngxHTTPLocConf, ngxConfFlag]]),
  ("open_file_cache_min_uses", [bits [ngxHTTPMainConf, ngxHTTPSrvConf, ngxHTTPLocConf, ngxConfTake1]]),
  ("open_file_cache_valid", [bits [ngxHTTPMainConf, ngxHTTPSrvConf, ngxHTTPLocConf, ngxConfTake1]]),
  ("open_log_file_cache", [bits [ngxHTTPMainConf, ngxHTTPSrvConf, ngxHTTPLocConf, ngxConfTake1234], bits [ngxStreamMainConf, ngxStreamSrvConf, ngxConfTake1234]]),
  ("output_buffers", [bits [ngxHTTPMainConf, ngxHTTPSrvConf, ngxHTTPLocConf, ngxConfTake2]]),
  ("override_charset", [bits [ngxHTTPMainConf, ngxHTTPSrvConf, ngxHTTPLocConf, ngxHTTPLifConf, ngxConfFlag]]),
  ("pass", [bits [ngxStreamSrvConf, ngxConfTake1]]),
  ("pcre_jit", [bits [ngxMainConf, ngxDirectConf, ngxConfFlag]]),
  ("perl", [bits [ngxHTTPLocConf, ngxHTTPLmtConf, ngxConfTake1]]),
  ("perl_modules", [bits [ngxHTTPMainConf, ngxConfTake1]]),
  ("perl_require", [bits [ngxHTTPMainConf, ngxConfTake1]]),
  ("perl_set", [bits [ngxHTTPMainConf, ngxConfTake2]]),
  ("pid", [bits [ngxMainConf, ngxDirectConf, ngxConfTake1]]),
  ("pkce", [bits [ngxHTTPOIDCConf, ngxConfFlag]]),
  ("pop3_auth", [bits [ngxMailMainConf, ngxMailSrvConf, ngxConf1More]]),
  ("pop3_capabilities", [bits [ngxMailMainConf, ngxMailSrvConf, ngxConf1More]]),
  ("port_in_redirect", [bits [ngxHTTPMainConf, ngxHTTPSrvConf, ngxHTTPLocConf, ngxConfFlag]]),
  ("post_logout_uri", [bits [ngxHTTPOIDCConf, ngxConfTake1]]),
  ("postpone_output", [bits [ngxHTTPMainConf, ngxHTTPSrvConf, ngxHTTPLocConf, ngxConfTake1]]),
  ("preread_buffer_size", [bits [ngxStreamMainConf, ngxStreamSrvConf, ngxConfTake1]]),
  ("preread_timeout", [bits [ngxStreamMainConf, ngxStreamSrvConf, ngxConfTake1]]),
  ("protocol", [bits [ngxMailSrvConf, ngxConfTake1]]),
  ("proxy", [bits [ngxMailMainConf, ngxMailSrvConf, ngxConfFlag], bits [ngxMgmtMainConf, ngxConfTake1]]),
  ("proxy_allow_upstream", [bits [ngxHTTPMainConf, ngxHTTPSrvConf, ngxHTTPLocConf, ngxConf1More]]),
  ("proxy_bind", [bits [ngxHTTPMainConf, ngxHTTPSrvConf, ngxHTTPLocConf, ngxConfTake12], bits [ngxStreamMainConf, ngxStreamSrvConf, ngxConfTake12]]),
  ("proxy_bind_dynamic", [bits [ngxHTTPMainConf, ngxHTTPSrvConf, ngxHTTPLocConf, ngxConfFlag], bits [ngxStreamMainConf, ngxStreamSrvConf, ngxConfFlag]]),
  ("proxy_buffer", [bits [ngxMailMainConf, ngxMailSrvConf, ngxConfTake1]]),
  ("proxy_buffer_size", [bits [ngxHTTPMainConf, ngxHTTPSrvConf, ngxHTTPLocConf, ngxConfTake1], bits [ngxStreamMainConf, ngxStreamSrvConf, ngxConfTake1]]),
  ("proxy_buffering", [bits [ngxHTTPMainConf, ngxHTTPSrvConf, ngxHTTPLocConf, ngxConfFlag]]),
  ("proxy_buffers", [bits [ngxHTTPMainConf, ngxHTTPSrvConf, ngxHTTPLocConf, ngxConfTake2]]),
  ("proxy_busy_buffers_size", [bits [ngxHTTPMainConf, ngxHTTPSrvConf, ngxHTTPLocConf, ngxConfTake1]]),
  ("proxy_cache", [bits [ngxHTTPMainConf, ngxHTTPSrvConf, ngxHTTPLocConf, ngxConfTake1]]),
  ("proxy_cache_background_update", [bits [ngxHTTPMainConf, ngxHTTPSrvConf, ngxHTTPLocConf, ngxConfFlag]]),
  ("proxy_cache_bypass", [bits [ngxHTTPMainConf, ngxHTTPSrvConf, ngxHTTPLocConf, ngxConf1More]]),
  ("proxy_cache_convert_head", [bits [ngxHTTPMainConf, ngxHTTPSrvConf, ngxHTTPLocConf, ngxConfFlag]]),
  ("proxy_cache_key", [bits [ngxHTTPMainConf, ngxHTTPSrvConf, ngxHTTPLocConf, ngxConfTake1]]),
  ("proxy_cache_lock", [bits [ngxHTTPMainConf, ngxHTTPSrvConf, ngxHTTPLocConf, ngxConfFlag]]),
  ("proxy_cache_lock_age", [bits [ngxHTTPMainConf, ngxHTTPSrvConf, ngxHTTPLocConf, ngxConfTake1]]),
  ("proxy_cache_lock_timeout", [bits [ngxHTTPMainConf, ngxHTTPSrvConf, ngxHTTPLocConf, ngxConfTake1]]),
  ("proxy_cache_max_range_offset", [bits [ngxHTTPMainConf, ngxHTTPSrvConf, ngxHTTPLocConf, ngxConfTake1]]),
  ("proxy_cache_methods", [bits [ngxHTTPMainConf, ngxHTTPSrvConf, ngxHTTPLocConf, ngxConf1More]]),
  ("proxy_cache_min_uses", [bits [ngxHTTPMainConf, ngxHTTPSrvConf, ngxHTTPLocConf, ngxConfTake1]]),
  ("proxy_cache_path", [bits [ngxHTTPMainConf, ngxConf2More]]),
  ("proxy_cache_purge", [bits [ngxHTTPMainConf, ngxHTTPSrvConf, ngxHTTPLocConf, ngxConf1More]]),
  ("proxy_cache_revalidate", [bits [ngxHTTPMainConf, ngxHTTPSrvConf, ngxHTTPLocConf, ngxConfFlag]]),
  ("proxy_cache_use_stale", [bits [ngxHTTPMainConf, ngxHTTPSrvConf, ngxHTTPLocConf, ngxConf1More]]),
  ("proxy_cache_valid", [bits [ngxHTTPMainConf, ngxHTTPSrvConf, ngxHTTPLocConf, ngxConf1More]]),
  ("proxy_connect_timeout", [bits [ngxHTTPMainConf, ngxHTTPSrvConf, ngxHTTPLocConf, ngxConfTake1], bits [ngxStreamMainConf, ngxStreamSrvConf, ngxConfTake1]]),
  ("proxy_cookie_domain", [bits [ngxHTTPMainConf, ngxHTTPSrvConf, ngxHTTPLocConf, ngxConfTake12]]),
  ("proxy_cookie_flags", [bits [ngxHTTPMainConf, ngxHTTPSrvConf, ngxHTTPLocConf, ngxConfTake1234]]),
  ("proxy_cookie_path", [bits [ngxHTTPMainConf, ngxHTTPSrvConf, ngxHTTPLocConf, ngxConfTake12]]),
  ("proxy_download_rate", [bits [ngxStreamMainConf, ngxStreamSrvConf, ngxConfTake1]]),
  ("proxy_force_ranges", [bits [ngxHTTPMainConf, ngxHTTPSrvConf, ngxHTTPLocConf, ngxConfFlag]]),
  ("proxy_half_close", [bits [ngxStreamMainConf, ngxStreamSrvConf, ngxConfFlag]]),
  ("proxy_headers_hash_bucket_size", [bits [ngxHTTPMainConf, ngxHTTPSrvConf, ngxHTTPLocConf, ngxConfTake1]]),
  ("proxy_headers_hash_max_size", [bits [ngxHTTPMainConf, ngxHTTPSrvConf, ngxHTTPLocConf, ngxConfTake1]]),
  ("proxy_hide_header", [bits [ngxHTTPMainConf, ngxHTTPSrvConf, ngxHTTPLocConf, ngxConfTake1]]),
  ("proxy_http_version", [bits [ngxHTTPMainConf, ngxHTTPSrvConf, ngxHTTPLocConf, ngxConfTake1]]),
  ("proxy_ignore_client_abort", [bits [ngxHTTPMainConf, ngxHTTPSrvConf, ngxHTTPLocConf, ngxConfFlag]]),
  ("proxy_ignore_headers", [bits [ngxHTTPMainConf, ngxHTTPSrvConf, ngxHTTPLocConf, ngxConf1More]]),
  ("proxy_intercept_errors", [bits [ngxHTTPMainConf, ngxHTTPSrvConf, ngxHTTPLocConf, ngxConfFlag]]),
  ("proxy_limit_rate", [bits [ngxHTTPMainConf, ngxHTTPSrvConf, ngxHTTPLocConf, ngxConfTake1]]),
  ("proxy_max_temp_file_size", [bits [ngxHTTPMainConf, ngxHTTPSrvConf, ngxHTTPLocConf, ngxConfTake1]]),
  ("proxy_method", [bits [ngxHTTPMainConf, ngxHTTPSrvConf, ngxHTTPLocConf, ngxConfTake1]]),
  ("proxy_next_upstream", [bits [ngxHTTPMainConf, ngxHTTPSrvConf, ngxHTTPLocConf, ngxConf1More], bits [ngxStreamMainConf, ngxStreamSrvConf, ngxConfFlag]]),
  ("proxy_next_upstream_timeout", [bits [ngxHTTPMainConf, ngxHTTPSrvConf, ngxHTTPLocConf, ngxConfTake1], bits [ngxStreamMainConf, ngxStreamSrvConf, ngxConfTake1]]),
  ("proxy_next_upstream_tries", [bits [ngxHTTPMainConf, ngxHTTPSrvConf, ngxHTTPLocConf, ngxConfTake1], bits [ngxStreamMainConf, ngxStreamSrvConf, ngxConfTake1]]),
  ("proxy_no_cache", [bits [ngxHTTPMainConf, ngxHTTPSrvConf, ngxHTTPLocConf, ngxConf1More]]),
  ("proxy_pass", [bits [ngxHTTPLocConf, ngxHTTPLifConf, ngxHTTPLmtConf, ngxConfTake1], bits [ngxStreamSrvConf, ngxConfTake1]]),
  ("proxy_pass_error_message", [bits [ngxMailMainConf, ngxMailSrvConf, ngxConfFlag]]),
  ("proxy_pass_header", [bits [ngxHTTPMainConf, ngxHTTPSrvConf, ngxHTTPLocConf, ngxConfTake1]]),
  ("proxy_pass_request_body", [bits [ngxHTTPMainConf, ngxHTTPSrvConf, ngxHTTPLocConf, ngxConfFlag]]),
  ("proxy_pass_request_headers", [bits [ngxHTTPMainConf, ngxHTTPSrvConf, ngxHTTPLocConf, ngxConfFlag]]),
  ("proxy_pass_trailers", [bits [ngxHTTPMainConf, ngxHTTPSrvConf, ngxHTTPLocConf, ngxConfFlag]]),
  ("proxy_password", [bits [ngxMgmtMainConf, ngxConfTake1]]),
  ("proxy_protocol", [bits [ngxMailMainConf, ngxMailSrvConf, ngxConfFlag], bits [ngxStreamMainConf, ngxStreamSrvConf, ngxConfFlag]]),
  ("proxy_protocol_timeout", [bits [ngxStreamMainConf, ngxStreamSrvConf, ngxConfTake1]]),
  ("proxy_read_timeout", [bits [ngxHTTPMainConf, ngxHTTPSrvConf, ngxHTTPLocConf, ngxConfTake1]])]

/-- analyze_nplus_latest_directives.gen.go `nginxPlusLatestDirectives`, entries 401-500. -/
def nginxPlusLatestDirectives_4 : List (String × List Nat) := [
  ("proxy_redirect", [bits [ngxHTTPMainConf, ngxHTTPSrvConf, ngxHTTPLocConf, ngxConfTake12]]),
  ("proxy_request_buffering", [bits [ngxHTTPMainConf, ngxHTTPSrvConf, ngxHTTPLocConf, ngxConfFlag]]),
  ("proxy_request_dynamic", [bits [ngxHTTPMainConf, ngxHTTPSrvConf, ngxHTTPLocConf, ngxConfFlag]]),
  ("proxy_requests", [bits [ngxStreamMainConf, ngxStreamSrvConf, ngxConfTake1]]),
  ("proxy_responses", [bits [ngxStreamMainConf, ngxStreamSrvConf, ngxConfTake1]]),
  ("proxy_send_lowat", [bits [ngxHTTPMainConf, ngxHTTPSrvConf, ngxHTTPLocConf, ngxConfTake1]]),
  ("proxy_send_timeout", [bits [ngxHTTPMainConf, ngxHTTPSrvConf, ngxHTTPLocConf, ngxConfTake1]]),
  ("proxy_session_drop", [bits [ngxStreamMainConf, ngxStreamSrvConf, ngxConfFlag]]),
  ("proxy_set_body", [bits [ngxHTTPMainConf, ngxHTTPSrvConf, ngxHTTPLocConf, ngxConfTake1]]),
  ("proxy_set_header", [bits [ngxHTTPMainConf, ngxHTTPSrvConf, ngxHTTPLocConf, ngxConfTake2]]),
  ("proxy_smtp_auth", [bits [ngxMailMainConf, ngxMailSrvConf, ngxConfFlag]]),
  ("proxy_socket_keepalive", [bits [ngxHTTPMainConf, ngxHTTPSrvConf, ngxHTTPLocConf, ngxConfFlag], bits [ngxStreamMainConf, ngxStreamSrvConf, ngxConfFlag]]),
  ("proxy_ssl", [bits [ngxStreamMainConf, ngxStreamSrvConf, ngxConfFlag]]),
  ("proxy_ssl_certificate", [bits [ngxHTTPMainConf, ngxHTTPSrvConf, ngxHTTPLocConf, ngxConfTake1], bits [ngxStreamMainConf, ngxStreamSrvConf, ngxConfTake1]]),
  ("proxy_ssl_certificate_cache", [bits [ngxHTTPMainConf, ngxHTTPSrvConf, ngxHTTPLocConf, ngxConfTake123], bits [ngxStreamMainConf, ngxStreamSrvConf, ngxConfTake123]]),
  ("proxy_ssl_certificate_key", [bits [ngxHTTPMainConf, ngxHTTPSrvConf, ngxHTTPLocConf, ngxConfTake1], bits [ngxStreamMainConf, ngxStreamSrvConf, ngxConfTake1]]),
  ("proxy_ssl_ciphers", [bits [ngxHTTPMainConf, ngxHTTPSrvConf, ngxHTTPLocConf, ngxConfTake1], bits [ngxStreamMainConf, ngxStreamSrvConf, ngxConfTake1]]),
  ("proxy_ssl_conf_command", [bits [ngxHTTPMainConf, ngxHTTPSrvConf, ngxHTTPLocConf, ngxConfTake2], bits [ngxStreamMainConf, ngxStreamSrvConf, ngxConfTake2]]),
  ("proxy_ssl_crl", [bits [ngxHTTPMainConf, ngxHTTPSrvConf, ngxHTTPLocConf, ngxConfTake1], bits [ngxStreamMainConf, ngxStreamSrvConf, ngxConfTake1]]),
  ("proxy_ssl_key_log", [bits [ngxHTTPMainConf, ngxHTTPSrvConf, ngxHTTPLocConf, ngxConfTake1], bits [ngxStreamMainConf, ngxStreamSrvConf, ngxConfTake1]]),
  ("proxy_ssl_name", [bits [ngxHTTPMainConf, ngxHTTPSrvConf, ngxHTTPLocConf, ngxConfTake1], bits [ngxStreamMainConf, ngxStreamSrvConf, ngxConfTake1]]),
  ("proxy_ssl_password_file", [bits [ngxHTTPMainConf, ngxHTTPSrvConf, ngxHTTPLocConf, ngxConfTake1], bits [ngxStreamMainConf, ngxStreamSrvConf, ngxConfTake1]]),
  ("proxy_ssl_protocols", [bits [ngxHTTPMainConf, ngxHTTPSrvConf, ngxHTTPLocConf, ngxConf1More], bits [ngxStreamMainConf, ngxStreamSrvConf, ngxConf1More]]),
  ("proxy_ssl_server_name", [bits [ngxHTTPMainConf, ngxHTTPSrvConf, ngxHTTPLocConf, ngxConfFlag], bits [ngxStreamMainConf, ngxStreamSrvConf, ngxConfFlag]]),
  ("proxy_ssl_session_reuse", [bits [ngxHTTPMainConf, ngxHTTPSrvConf, ngxHTTPLocConf, ngxConfFlag], bits [ngxStreamMainConf, ngxStreamSrvConf, ngxConfFlag]]),
  ("proxy_ssl_trusted_certificate", [bits [ngxHTTPMainConf, ngxHTTPSrvConf, ngxHTTPLocConf, ngxConfTake1], bits [ngxStreamMainConf, ngxStreamSrvConf, ngxConfTake1]]),
  ("proxy_ssl_verify", [bits [ngxHTTPMainConf, ngxHTTPSrvConf, ngxHTTPLocConf, ngxConfFlag], bits [ngxStreamMainConf, ngxStreamSrvConf, ngxConfFlag]]),
  ("proxy_ssl_verify_depth", [bits [ngxHTTPMainConf, ngxHTTPSrvConf, ngxHTTPLocConf, ngxConfTake1], bits [ngxStreamMainConf, ngxStreamSrvConf, ngxConfTake1]]),
  ("proxy_store", [bits [ngxHTTPMainConf, ngxHTTPSrvConf, ngxHTTPLocConf, ngxConfTake1]]),
  ("proxy_store_access", [bits [ngxHTTPMainConf, ngxHTTPSrvConf, ngxHTTPLocConf, ngxConfTake123]]),
  ("proxy_temp_file_write_size", [bits [ngxHTTPMainConf, ngxHTTPSrvConf, ngxHTTPLocConf, ngxConfTake1]]),
  ("proxy_temp_path", [bits [ngxHTTPMainConf, ngxHTTPSrvConf, ngxHTTPLocConf, ngxConfTake1234]]),
  ("proxy_timeout", [bits [ngxMailMainConf, ngxMailSrvConf, ngxConfTake1], bits [ngxStreamMainConf, ngxStreamSrvConf, ngxConfTake1]]),
  ("proxy_upload_rate", [bits [ngxStreamMainConf, ngxStreamSrvConf, ngxConfTake1]]),
  ("proxy_username", [bits [ngxMgmtMainConf, ngxConfTake1]]),
  ("queue", [bits [ngxHTTPUpsConf, ngxConfTake12]]),
  ("quic_active_connection_id_limit", [bits [ngxHTTPMainConf, ngxHTTPSrvConf, ngxConfTake1]]),
  ("quic_bpf", [bits [ngxMainConf, ngxDirectConf, ngxConfFlag]]),
  ("quic_gso", [bits [ngxHTTPMainConf, ngxHTTPSrvConf, ngxConfFlag]]),
  ("quic_host_key", [bits [ngxHTTPMainConf, ngxHTTPSrvConf, ngxConfTake1]]),
  ("quic_retry", [bits [ngxHTTPMainConf, ngxHTTPSrvConf, ngxConfFlag]]),
  ("random", [bits [ngxHTTPUpsConf, ngxConfNoArgs, ngxConfTake12], bits [ngxStreamUpsConf, ngxConfNoArgs, ngxConfTake12]]),
  ("random_index", [bits [ngxHTTPLocConf, ngxConfFlag]]),
  ("read_ahead", [bits [ngxHTTPMainConf, ngxHTTPSrvConf, ngxHTTPLocConf, ngxConfTake1]]),
  ("read_timeout", [bits [ngxMgmtMainConf, ngxConfTake1]]),
  ("real_ip_header", [bits [ngxHTTPMainConf, ngxHTTPSrvConf, ngxHTTPLocConf, ngxConfTake1]]),
  ("real_ip_recursive", [bits [ngxHTTPMainConf, ngxHTTPSrvConf, ngxHTTPLocConf, ngxConfFlag]]),
  ("recursive_error_pages", [bits [ngxHTTPMainConf, ngxHTTPSrvConf, ngxHTTPLocConf, ngxConfFlag]]),
  ("redirect_uri", [bits [ngxHTTPOIDCConf, ngxConfTake1]]),
  ("referer_hash_bucket_size", [bits [ngxHTTPSrvConf, ngxHTTPLocConf, ngxConfTake1]]),
  ("referer_hash_max_size", [bits [ngxHTTPSrvConf, ngxHTTPLocConf, ngxConfTake1]]),
  ("request_pool_size", [bits [ngxHTTPMainConf, ngxHTTPSrvConf, ngxConfTake1]]),
  ("reset_timedout_connection", [bits [ngxHTTPMainConf, ngxHTTPSrvConf, ngxHTTPLocConf, ngxConfFlag]]),
  ("resolver", [bits [ngxHTTPMainConf, ngxHTTPSrvConf, ngxHTTPLocConf, ngxConf1More], bits [ngxHTTPUpsConf, ngxConf1More], bits [ngxMailMainConf, ngxMailSrvConf, ngxConf1More], bits [ngxMgmtMainConf, ngxConf1More], bits [ngxStreamMainConf, ngxStreamSrvConf, ngxConf1More], bits [ngxStreamUpsConf, ngxConf1More]]),
  ("resolver_timeout", [bits [ngxHTTPMainConf, ngxHTTPSrvConf, ngxHTTPLocConf, ngxConfTake1], bits [ngxHTTPUpsConf, ngxConfTake1], bits [ngxMailMainConf, ngxMailSrvConf, ngxConfTake1], bits [ngxMgmtMainConf, ngxConfTake1], bits [ngxStreamMainConf, ngxStreamSrvConf, ngxConfTake1], bits [ngxStreamUpsConf, ngxConfTake1]]),
  ("return", [bits [ngxHTTPSrvConf, ngxHTTPSifConf, ngxHTTPLocConf, ngxHTTPLifConf, ngxConfTake12], bits [ngxStreamSrvConf, ngxConfTake1]]),
  ("rewrite", [bits [ngxHTTPSrvConf, ngxHTTPSifConf, ngxHTTPLocConf, ngxHTTPLifConf, ngxConfTake23]]),
  ("rewrite_log", [bits [ngxHTTPMainConf, ngxHTTPSrvConf, ngxHTTPSifConf, ngxHTTPLocConf, ngxHTTPLifConf, ngxConfFlag]]),
  ("root", [bits [ngxHTTPMainConf, ngxHTTPSrvConf, ngxHTTPLocConf, ngxHTTPLifConf, ngxConfTake1]]),
  ("satisfy", [bits [ngxHTTPMainConf, ngxHTTPSrvConf, ngxHTTPLocConf, ngxConfTake1]]),
  ("scgi_allow_upstream", [bits [ngxHTTPMainConf, ngxHTTPSrvConf, ngxHTTPLocConf, ngxConf1More]]),
  ("scgi_bind", [bits [ngxHTTPMainConf, ngxHTTPSrvConf, ngxHTTPLocConf, ngxConfTake12]]),
  ("scgi_bind_dynamic", [bits [ngxHTTPMainConf, ngxHTTPSrvConf, ngxHTTPLocConf, ngxConfFlag]]),
  ("scgi_buffer_size", [bits [ngxHTTPMainConf, ngxHTTPSrvConf, ngxHTTPLocConf, ngxConfTake1]]),
  ("scgi_buffering", [bits [ngxHTTPMainConf, ngxHTTPSrvConf, ngxHTTPLocConf, ngxConfFlag]]),
  ("scgi_buffers", [bits [ngxHTTPMainConf, ngxHTTPSrvConf, ngxHTTPLocConf, ngxConfTake2]]),
  ("scgi_busy_buffers_size", [bits [ngxHTTPMainConf, ngxHTTPSrvConf, ngxHTTPLocConf, ngxConfTake1]]),
  ("scgi_cache", [bits [ngxHTTPMainConf, ngxHTTPSrvConf, ngxHTTPLocConf, ngxConfTake1]]),
  ("scgi_cache_background_update", [bits [ngxHTTPMainConf, ngxHTTPSrvConf, ngxHTTPLocConf, ngxConfFlag]]),
  ("scgi_cache_bypass", [bits [ngxHTTPMainConf, ngxHTTPSrvConf, ngxHTTPLocConf, ngxConf1More]]),
  ("scgi_cache_key", [bits [ngxHTTPMainConf, ngxHTTPSrvConf, ngxHTTPLocConf, ngxConfTake1]]),
  ("scgi_cache_lock", [bits [ngxHTTPMainConf, ngxHTTPSrvConf, ngxHTTPLocConf, ngxConfFlag]]),
  ("scgi_cache_lock_age", [bits [ngxHTTPMainConf, ngxHTTPSrvConf, ngxHTTPLocConf, ngxConfTake1]]),
  ("scgi_cache_lock_timeout", [bits [ngxHTTPMainConf, ngxHTTPSrvConf, ngxHTTPLocConf, ngxConfTake1]]),
  ("scgi_cache_max_range_offset", [bits [ngxHTTPMainConf, ngxHTTPSrvConf, ngxHTTPLocConf, ngxConfTake1]]),
  ("scgi_cache_methods", [bits [ngxHTTPMainConf, ngxHTTPSrvConf, ngxHTTPLocConf, ngxConf1More]]),
  ("scgi_cache_min_uses", [bits [ngxHTTPMainConf, ngxHTTPSrvConf, ngxHTTPLocConf, ngxConfTake1]]),
  ("scgi_cache_path", [bits [ngxHTTPMainConf, ngxConf2More]]),
  ("scgi_cache_purge", [bits [ngxHTTPMainConf, ngxHTTPSrvConf, ngxHTTPLocConf, ngxConf1More]]),
  ("scgi_cache_revalidate", [bits [ngxHTTPMainConf, ngxHTTPSrvConf, ngxHTTPLocConf, ngxConfFlag]]),
  ("scgi_cache_use_stale", [bits [ngxHTTPMainConf, ngxHTTPSrvConf, ngxHTTPLocConf, ngxConf1More]]),
  ("scgi_cache_valid", [bits [ngxHTTPMainConf, ngxHTTPSrvConf, ngxHTTPLocConf, ngxConf1More]]),
  ("scgi_connect_timeout", [bits [ngxHTTPMainConf, ngxHTTPSrvConf, ngxHTTPLocConf, ngxConfTake1]]),
  ("scgi_force_ranges", [bits [ngxHTTPMainConf, ngxHTTPSrvConf, ngxHTTPLocConf, ngxConfFlag]]),
  ("scgi_hide_header", [bits [ngxHTTPMainConf, ngxHTTPSrvConf, ngxHTTPLocConf, ngxConfTake1]]),
  ("scgi_ignore_client_abort", [bits [ngxHTTPMainConf, ngxHTTPSrvConf, ngxHTTPLocConf, ngxConfFlag]]),
  ("scgi_ignore_headers", [bits [ngxHTTPMainConf, ngxHTTPSrvConf, ngxHTTPLocConf, ngxConf1More]]),
  ("scgi_intercept_errors", [bits [ngxHTTPMainConf, ngxHTTPSrvConf, ngxHTTPLocConf, ngxConfFlag]]),
  ("scgi_limit_rate", [bits [ngxHTTPMainConf, ngxHTTPSrvConf, ngxHTTPLocConf, ngxConfTake1]]),
  ("scgi_max_temp_file_size", [bits [ngxHTTPMainConf, ngxHTTPSrvConf, ngxHTTPLocConf, ngxConfTake1]]),
  ("scgi_next_upstream", [bits [ngxHTTPMainConf, ngxHTTPSrvConf, ngxHTTPLocConf, ngxConf1More]]),
  ("scgi_next_upstream_timeout", [bits [ngxHTTPMainConf, ngxHTTPSrvConf, ngxHTTPLocConf, ngxConfTake1]]),
  ("scgi_next_upstream_tries", [bits [ngxHTTPMainConf, ngxHTTPSrvConf, ngxHTTPLocConf, ngxConfTake1]]),
  ("scgi_no_cache", [bits [ngxHTTPMainConf, ngxHTTPSrvConf, ngxHTTPLocConf, ngxConf1More]]),
  ("scgi_param", [bits [ngxHTTPMainConf, ngxHTTPSrvConf, ngxHTTPLocConf, ngxConfTake23]]),
  ("scgi_pass", [bits [ngxHTTPLocConf, ngxHTTPLifConf, ngxConfTake1]]),
  ("scgi_pass_header", [bits [ngxHTTPMainConf, ngxHTTPSrvConf, ngxHTTPLocConf, ngxConfTake1]]),
  ("scgi_pass_request_body", [bits [ngxHTTPMainConf, ngxHTTPSrvConf, ngxHTTPLocConf, ngxConfFlag]]),
  ("scgi_pass_request_headers", [bits [ngxHTTPMainConf, ngxHTTPSrvConf, ngxHTTPLocConf, ngxConfFlag]]),
  ("scgi_read_timeout", [bits [ngxHTTPMainConf, ngxHTTPSrvConf, ngxHTTPLocConf, ngxConfTake1]])]

/-- analyze_nplus_latest_directives.gen.go `nginxPlusLatestDirectives`, entries 501-600. -/
def nginxPlusLatestDirectives_5 : List (String × List Nat) := [
  ("scgi_request_buffering", [bits [ngxHTTPMainConf, ngxHTTPSrvConf, ngxHTTPLocConf, ngxConfFlag]]),
  ("scgi_request_dynamic", [bits [ngxHTTPMainConf, ngxHTTPSrvConf, ngxHTTPLocConf, ngxConfFlag]]),
  ("scgi_send_timeout", [bits [ngxHTTPMainConf, ngxHTTPSrvConf, ngxHTTPLocConf, ngxConfTake1]]),
  ("scgi_socket_keepalive", [bits [ngxHTTPMainConf, ngxHTTPSrvConf, ngxHTTPLocConf, ngxConfFlag]]),
  ("scgi_store", [bits [ngxHTTPMainConf, ngxHTTPSrvConf, ngxHTTPLocConf, ngxConfTake1]]),
  ("scgi_store_access", [bits [ngxHTTPMainConf, ngxHTTPSrvConf, ngxHTTPLocConf, ngxConfTake123]]),
  ("scgi_temp_file_write_size", [bits [ngxHTTPMainConf, ngxHTTPSrvConf, ngxHTTPLocConf, ngxConfTake1]]),
  ("scgi_temp_path", [bits [ngxHTTPMainConf, ngxHTTPSrvConf, ngxHTTPLocConf, ngxConfTake1234]]),
  ("scope", [bits [ngxHTTPOIDCConf, ngxConfTake1]]),
  ("secure_link", [bits [ngxHTTPMainConf, ngxHTTPSrvConf, ngxHTTPLocConf, ngxConfTake1]]),
  ("secure_link_md5", [bits [ngxHTTPMainConf, ngxHTTPSrvConf, ngxHTTPLocConf, ngxConfTake1]]),
  ("secure_link_secret", [bits [ngxHTTPMainConf, ngxHTTPSrvConf, ngxHTTPLocConf, ngxConfTake1]]),
  ("send_lowat", [bits [ngxHTTPMainConf, ngxHTTPSrvConf, ngxHTTPLocConf, ngxConfTake1]]),
  ("send_timeout", [bits [ngxHTTPMainConf, ngxHTTPSrvConf, ngxHTTPLocConf, ngxConfTake1], bits [ngxMgmtMainConf, ngxConfTake1]]),
  ("sendfile", [bits [ngxHTTPMainConf, ngxHTTPSrvConf, ngxHTTPLocConf, ngxHTTPLifConf, ngxConfFlag]]),
  ("sendfile_max_chunk", [bits [ngxHTTPMainConf, ngxHTTPSrvConf, ngxHTTPLocConf, ngxConfTake1]]),
  ("server", [bits [ngxHTTPMainConf, ngxConfBlock, ngxConfNoArgs], bits [ngxHTTPUpsConf, ngxConf1More], bits [ngxMailMainConf, ngxConfBlock, ngxConfNoArgs], bits [ngxStreamMainConf, ngxConfBlock, ngxConfNoArgs], bits [ngxStreamUpsConf, ngxConf1More]]),
  ("server_name", [bits [ngxHTTPSrvConf, ngxConf1More], bits [ngxMailMainConf, ngxMailSrvConf, ngxConfTake1], bits [ngxStreamSrvConf, ngxConf1More]]),
  ("server_name_in_redirect", [bits [ngxHTTPMainConf, ngxHTTPSrvConf, ngxHTTPLocConf, ngxConfFlag]]),
  ("server_names_hash_bucket_size", [bits [ngxHTTPMainConf, ngxConfTake1], bits [ngxStreamMainConf, ngxConfTake1]]),
  ("server_names_hash_max_size", [bits [ngxHTTPMainConf, ngxConfTake1], bits [ngxStreamMainConf, ngxConfTake1]]),
  ("server_tokens", [bits [ngxHTTPMainConf, ngxHTTPSrvConf, ngxHTTPLocConf, ngxConfTake1]]),
  ("session_log", [bits [ngxHTTPMainConf, ngxHTTPSrvConf, ngxHTTPLocConf, ngxConfTake1]]),
  ("session_log_format", [bits [ngxHTTPMainConf, ngxConf2More]]),
  ("session_log_zone", [bits [ngxHTTPMainConf, ngxConf2More]]),
  ("session_store", [bits [ngxHTTPOIDCConf, ngxConfTake1]]),
  ("session_timeout", [bits [ngxHTTPOIDCConf, ngxConfTake1]]),
  ("set", [bits [ngxHTTPSrvConf, ngxHTTPSifConf, ngxHTTPLocConf, ngxHTTPLifConf, ngxConfTake2], bits [ngxStreamSrvConf, ngxConfTake2]]),
  ("set_real_ip_from", [bits [ngxHTTPMainConf, ngxHTTPSrvConf, ngxHTTPLocConf, ngxConfTake1], bits [ngxMailMainConf, ngxMailSrvConf, ngxConfTake1], bits [ngxStreamMainConf, ngxStreamSrvConf, ngxConfTake1]]),
  ("slice", [bits [ngxHTTPMainConf, ngxHTTPSrvConf, ngxHTTPLocConf, ngxConfTake1]]),
  ("smtp_auth", [bits [ngxMailMainConf, ngxMailSrvConf, ngxConf1More]]),
  ("smtp_capabilities", [bits [ngxMailMainConf, ngxMailSrvConf, ngxConf1More]]),
  ("smtp_client_buffer", [bits [ngxMailMainConf, ngxMailSrvConf, ngxConfTake1]]),
  ("smtp_greeting_delay", [bits [ngxMailMainConf, ngxMailSrvConf, ngxConfTake1]]),
  ("source_charset", [bits [ngxHTTPMainConf, ngxHTTPSrvConf, ngxHTTPLocConf, ngxHTTPLifConf, ngxConfTake1]]),
  ("split_clients", [bits [ngxHTTPMainConf, ngxConfBlock, ngxConfTake2], bits [ngxStreamMainConf, ngxConfBlock, ngxConfTake2]]),
  ("ssi", [bits [ngxHTTPMainConf, ngxHTTPSrvConf, ngxHTTPLocConf, ngxHTTPLifConf, ngxConfFlag]]),
  ("ssi_last_modified", [bits [ngxHTTPMainConf, ngxHTTPSrvConf, ngxHTTPLocConf, ngxConfFlag]]),
  ("ssi_min_file_chunk", [bits [ngxHTTPMainConf, ngxHTTPSrvConf, ngxHTTPLocConf, ngxConfTake1]]),
  ("ssi_silent_errors", [bits [ngxHTTPMainConf, ngxHTTPSrvConf, ngxHTTPLocConf, ngxConfFlag]]),
  ("ssi_types", [bits [ngxHTTPMainConf, ngxHTTPSrvConf, ngxHTTPLocConf, ngxConf1More]]),
  ("ssi_value_length", [bits [ngxHTTPMainConf, ngxHTTPSrvConf, ngxHTTPLocConf, ngxConfTake1]]),
  ("ssl", [bits [ngxMgmtMainConf, ngxConfFlag]]),
  ("ssl_alpn", [bits [ngxStreamMainConf, ngxStreamSrvConf, ngxConf1More]]),
  ("ssl_buffer_size", [bits [ngxHTTPMainConf, ngxHTTPSrvConf, ngxConfTake1]]),
  ("ssl_certificate", [bits [ngxHTTPMainConf, ngxHTTPSrvConf, ngxConfTake1], bits [ngxMailMainConf, ngxMailSrvConf, ngxConfTake1], bits [ngxMgmtMainConf, ngxConfTake1], bits [ngxStreamMainConf, ngxStreamSrvConf, ngxConfTake1]]),
  ("ssl_certificate_cache", [bits [ngxHTTPMainConf, ngxHTTPSrvConf, ngxConfTake123], bits [ngxStreamMainConf, ngxStreamSrvConf, ngxConfTake123]]),
  ("ssl_certificate_compression", [bits [ngxHTTPMainConf, ngxHTTPSrvConf, ngxConfFlag], bits [ngxMailMainConf, ngxMailSrvConf, ngxConfFlag], bits [ngxStreamMainConf, ngxStreamSrvConf, ngxConfFlag]]),
  ("ssl_certificate_key", [bits [ngxHTTPMainConf, ngxHTTPSrvConf, ngxConfTake1], bits [ngxMailMainConf, ngxMailSrvConf, ngxConfTake1], bits [ngxMgmtMainConf, ngxConfTake1], bits [ngxStreamMainConf, ngxStreamSrvConf, ngxConfTake1]]),
  ("ssl_ciphers", [bits [ngxHTTPMainConf, ngxHTTPSrvConf, ngxConfTake1], bits [ngxMailMainConf, ngxMailSrvConf, ngxConfTake1], bits [ngxMgmtMainConf, ngxConfTake1], bits [ngxStreamMainConf, ngxStreamSrvConf, ngxConfTake1]]),
  ("ssl_client_certificate", [bits [ngxHTTPMainConf, ngxHTTPSrvConf, ngxConfTake1], bits [ngxMailMainConf, ngxMailSrvConf, ngxConfTake1], bits [ngxStreamMainConf, ngxStreamSrvConf, ngxConfTake1]]),
  ("ssl_conf_command", [bits [ngxHTTPMainConf, ngxHTTPSrvConf, ngxConfTake2], bits [ngxMailMainConf, ngxMailSrvConf, ngxConfTake2], bits [ngxStreamMainConf, ngxStreamSrvConf, ngxConfTake2]]),
  ("ssl_crl", [bits [ngxHTTPMainConf, ngxHTTPSrvConf, ngxConfTake1], bits [ngxMailMainConf, ngxMailSrvConf, ngxConfTake1], bits [ngxMgmtMainConf, ngxConfTake1], bits [ngxStreamMainConf, ngxStreamSrvConf, ngxConfTake1], bits [ngxHTTPOIDCConf, ngxConfTake1]]),
  ("ssl_dhparam", [bits [ngxHTTPMainConf, ngxHTTPSrvConf, ngxConfTake1], bits [ngxMailMainConf, ngxMailSrvConf, ngxConfTake1], bits [ngxStreamMainConf, ngxStreamSrvConf, ngxConfTake1]]),
  ("ssl_early_data", [bits [ngxHTTPMainConf, ngxHTTPSrvConf, ngxConfFlag]]),
  ("ssl_ecdh_curve", [bits [ngxHTTPMainConf, ngxHTTPSrvConf, ngxConfTake1], bits [ngxMailMainConf, ngxMailSrvConf, ngxConfTake1], bits [ngxStreamMainConf, ngxStreamSrvConf, ngxConfTake1]]),
  ("ssl_ech_file", [bits [ngxHTTPMainConf, ngxHTTPSrvConf, ngxConfTake1], bits [ngxStreamMainConf, ngxStreamSrvConf, ngxConfTake1]]),
  ("ssl_engine", [bits [ngxMainConf, ngxDirectConf, ngxConfTake1]]),
  ("ssl_handshake_timeout", [bits [ngxStreamMainConf, ngxStreamSrvConf, ngxConfTake1]]),
  ("ssl_key_log", [bits [ngxHTTPMainConf, ngxHTTPSrvConf, ngxConfTake1], bits [ngxStreamMainConf, ngxStreamSrvConf, ngxConfTake1]]),
  ("ssl_name", [bits [ngxMgmtMainConf, ngxConfTake1]]),
  ("ssl_object_cache_inheritable", [bits [ngxMainConf, ngxDirectConf, ngxConfFlag]]),
  ("ssl_ocsp", [bits [ngxHTTPMainConf, ngxHTTPSrvConf, ngxConfTake1], bits [ngxStreamMainConf, ngxStreamSrvConf, ngxConfTake1]]),
  ("ssl_ocsp_cache", [bits [ngxHTTPMainConf, ngxHTTPSrvConf, ngxConfTake1], bits [ngxStreamMainConf, ngxStreamSrvConf, ngxConfTake1]]),
  ("ssl_ocsp_responder", [bits [ngxHTTPMainConf, ngxHTTPSrvConf, ngxConfTake1], bits [ngxStreamMainConf, ngxStreamSrvConf, ngxConfTake1]]),
  ("ssl_password_file", [bits [ngxHTTPMainConf, ngxHTTPSrvConf, ngxConfTake1], bits [ngxMailMainConf, ngxMailSrvConf, ngxConfTake1], bits [ngxMgmtMainConf, ngxConfTake1], bits [ngxStreamMainConf, ngxStreamSrvConf, ngxConfTake1]]),
  ("ssl_prefer_server_ciphers", [bits [ngxHTTPMainConf, ngxHTTPSrvConf, ngxConfFlag], bits [ngxMailMainConf, ngxMailSrvConf, ngxConfFlag], bits [ngxStreamMainConf, ngxStreamSrvConf, ngxConfFlag]]),
  ("ssl_preread", [bits [ngxStreamMainConf, ngxStreamSrvConf, ngxConfFlag]]),
  ("ssl_protocols", [bits [ngxHTTPMainConf, ngxHTTPSrvConf, ngxConf1More], bits [ngxMailMainConf, ngxMailSrvConf, ngxConf1More], bits [ngxMgmtMainConf, ngxConf1More], bits [ngxStreamMainConf, ngxStreamSrvConf, ngxConf1More]]),
  ("ssl_reject_handshake", [bits [ngxHTTPMainConf, ngxHTTPSrvConf, ngxConfFlag], bits [ngxStreamMainConf, ngxStreamSrvConf, ngxConfFlag]]),
  ("ssl_server_name", [bits [ngxMgmtMainConf, ngxConfFlag]]),
  ("ssl_session_cache", [bits [ngxHTTPMainConf, ngxHTTPSrvConf, ngxConfTake12], bits [ngxMailMainConf, ngxMailSrvConf, ngxConfTake12], bits [ngxStreamMainConf, ngxStreamSrvConf, ngxConfTake12]]),
  ("ssl_session_ticket_key", [bits [ngxHTTPMainConf, ngxHTTPSrvConf, ngxConfTake1], bits [ngxMailMainConf, ngxMailSrvConf, ngxConfTake1], bits [ngxStreamMainConf, ngxStreamSrvConf, ngxConfTake1]]),
  ("ssl_session_tickets", [bits [ngxHTTPMainConf, ngxHTTPSrvConf, ngxConfFlag], bits [ngxMailMainConf, ngxMailSrvConf, ngxConfFlag], bits [ngxStreamMainConf, ngxStreamSrvConf, ngxConfFlag]]),
  ("ssl_session_timeout", [bits [ngxHTTPMainConf, ngxHTTPSrvConf, ngxConfTake1], bits [ngxMailMainConf, ngxMailSrvConf, ngxConfTake1], bits [ngxStreamMainConf, ngxStreamSrvConf, ngxConfTake1]]),
  ("ssl_stapling", [bits [ngxHTTPMainConf, ngxHTTPSrvConf, ngxConfFlag], bits [ngxStreamMainConf, ngxStreamSrvConf, ngxConfFlag]]),
  ("ssl_stapling_file", [bits [ngxHTTPMainConf, ngxHTTPSrvConf, ngxConfTake1], bits [ngxStreamMainConf, ngxStreamSrvConf, ngxConfTake1]]),
  ("ssl_stapling_responder", [bits [ngxHTTPMainConf, ngxHTTPSrvConf, ngxConfTake1], bits [ngxStreamMainConf, ngxStreamSrvConf, ngxConfTake1]]),
  ("ssl_stapling_verify", [bits [ngxHTTPMainConf, ngxHTTPSrvConf, ngxConfFlag], bits [ngxStreamMainConf, ngxStreamSrvConf, ngxConfFlag]]),
  ("ssl_trusted_certificate", [bits [ngxHTTPMainConf, ngxHTTPSrvConf, ngxConfTake1], bits [ngxMailMainConf, ngxMailSrvConf, ngxConfTake1], bits [ngxMgmtMainConf, ngxConfTake1], bits [ngxStreamMainConf, ngxStreamSrvConf, ngxConfTake1], bits [ngxHTTPOIDCConf, ngxConfTake1]]),
  ("ssl_verify", [bits [ngxMgmtMainConf, ngxConfFlag]]),
  ("ssl_verify_client", [bits [ngxHTTPMainConf, ngxHTTPSrvConf, ngxConfTake1], bits [ngxMailMainConf, ngxMailSrvConf, ngxConfTake1], bits [ngxStreamMainConf, ngxStreamSrvConf, ngxConfTake1]]),
  ("ssl_verify_depth", [bits [ngxHTTPMainConf, ngxHTTPSrvConf, ngxConfTake1], bits [ngxMailMainConf, ngxMailSrvConf, ngxConfTake1], bits [ngxMgmtMainConf, ngxConfTake1], bits [ngxStreamMainConf, ngxStreamSrvConf, ngxConfTake1]]),
  ("stall_threshold", [bits [ngxEventConf, ngxConfTake1]]),
  ("starttls", [bits [ngxMailMainConf, ngxMailSrvConf, ngxConfTake1]]),
  ("state", [bits [ngxHTTPUpsConf, ngxConfTake1], bits [ngxStreamUpsConf, ngxConfTake1]]),
  ("state_path", [bits [ngxMgmtMainConf, ngxConfTake1]]),
  ("status", [bits [ngxConf1More]]),
  ("status_zone", [bits [ngxHTTPSrvConf, ngxConfTake1], bits [ngxHTTPLocConf, ngxHTTPLifConf, ngxConfTake1], bits [ngxStreamSrvConf, ngxConfTake1]]),
  ("sticky", [bits [ngxHTTPUpsConf, ngxConf2More]]),
  ("stream", [bits [ngxMainConf, ngxConfBlock, ngxConfNoArgs]]),
  ("stub_status", [bits [ngxHTTPSrvConf, ngxHTTPLocConf, ngxConfNoArgs, ngxConfTake1]]),
  ("sub_filter", [bits [ngxHTTPMainConf, ngxHTTPSrvConf, ngxHTTPLocConf, ngxConfTake2]]),
  ("sub_filter_last_modified", [bits [ngxHTTPMainConf, ngxHTTPSrvConf, ngxHTTPLocConf, ngxConfFlag]]),
  ("sub_filter_once", [bits [ngxHTTPMainConf, ngxHTTPSrvConf, ngxHTTPLocConf, ngxConfFlag]]),
  ("sub_filter_types", [bits [ngxHTTPMainConf, ngxHTTPSrvConf, ngxHTTPLocConf, ngxConf1More]]),
  ("subrequest_output_buffer_size", [bits [ngxHTTPMainConf, ngxHTTPSrvConf, ngxHTTPLocConf, ngxConfTake1]]),
  ("tcp_nodelay", [bits [ngxHTTPMainConf, ngxHTTPSrvConf, ngxHTTPLocConf, ngxConfFlag], bits [ngxStreamMainConf, ngxStreamSrvConf, ngxConfFlag]]),
  ("tcp_nopush", [bits [ngxHTTPMainConf, ngxHTTPSrvConf, ngxHTTPLocConf, ngxConfFlag]]),
  ("thread_pool", [bits [ngxMainConf, ngxDirectConf, ngxConfTake23]])]

/-- analyze_nplus_latest_directives.gen.go `nginxPlusLatestDirectives`, entries 601-700. -/
def nginxPlusLatestDirectives_6 : List (String × List Nat) := [
  ("timeout", [bits [ngxMailMainConf, ngxMailSrvConf, ngxConfTake1]]),
  ("timer_resolution", [bits [ngxMainConf, ngxDirectConf, ngxConfTake1]]),
  ("try_files", [bits [ngxHTTPSrvConf, ngxHTTPLocConf, ngxConf2More]]),
  ("tunnel_allow_upstream", [bits [ngxHTTPMainConf, ngxHTTPSrvConf, ngxHTTPLocConf, ngxConf1More]]),
  ("tunnel_bind", [bits [ngxHTTPMainConf, ngxHTTPSrvConf, ngxHTTPLocConf, ngxConfTake12]]),
  ("tunnel_bind_dynamic", [bits [ngxHTTPMainConf, ngxHTTPSrvConf, ngxHTTPLocConf, ngxConfFlag]]),
  ("tunnel_buffer_size", [bits [ngxHTTPMainConf, ngxHTTPSrvConf, ngxHTTPLocConf, ngxConfTake1]]),
  ("tunnel_connect_timeout", [bits [ngxHTTPMainConf, ngxHTTPSrvConf, ngxHTTPLocConf, ngxConfTake1]]),
  ("tunnel_next_upstream", [bits [ngxHTTPMainConf, ngxHTTPSrvConf, ngxHTTPLocConf, ngxConf1More]]),
  ("tunnel_next_upstream_timeout", [bits [ngxHTTPMainConf, ngxHTTPSrvConf, ngxHTTPLocConf, ngxConfTake1]]),
  ("tunnel_next_upstream_tries", [bits [ngxHTTPMainConf, ngxHTTPSrvConf, ngxHTTPLocConf, ngxConfTake1]]),
  ("tunnel_pass", [bits [ngxHTTPSrvConf, ngxHTTPLocConf, ngxHTTPLifConf, ngxConfNoArgs, ngxConfTake1]]),
  ("tunnel_read_timeout", [bits [ngxHTTPMainConf, ngxHTTPSrvConf, ngxHTTPLocConf, ngxConfTake1]]),
  ("tunnel_send_lowat", [bits [ngxHTTPMainConf, ngxHTTPSrvConf, ngxHTTPLocConf, ngxConfTake1]]),
  ("tunnel_send_timeout", [bits [ngxHTTPMainConf, ngxHTTPSrvConf, ngxHTTPLocConf, ngxConfTake1]]),
  ("tunnel_socket_keepalive", [bits [ngxHTTPMainConf, ngxHTTPSrvConf, ngxHTTPLocConf, ngxConfFlag]]),
  ("types", [bits [ngxHTTPMainConf, ngxHTTPSrvConf, ngxHTTPLocConf, ngxConfBlock, ngxConfNoArgs]]),
  ("types_hash_bucket_size", [bits [ngxHTTPMainConf, ngxHTTPSrvConf, ngxHTTPLocConf, ngxConfTake1]]),
  ("types_hash_max_size", [bits [ngxHTTPMainConf, ngxHTTPSrvConf, ngxHTTPLocConf, ngxConfTake1]]),
  ("underscores_in_headers", [bits [ngxHTTPMainConf, ngxHTTPSrvConf, ngxConfFlag]]),
  ("uninitialized_variable_warn", [bits [ngxHTTPMainConf, ngxHTTPSrvConf, ngxHTTPSifConf, ngxHTTPLocConf, ngxHTTPLifConf, ngxConfFlag]]),
  ("upstream", [bits [ngxHTTPMainConf, ngxConfBlock, ngxConfTake1], bits [ngxStreamMainConf, ngxConfBlock, ngxConfTake1]]),
  ("usage_report", [bits [ngxMgmtMainConf, ngxConfNoArgs, ngxConfTake12]]),
  ("use", [bits [ngxEventConf, ngxConfTake1]]),
  ("user", [bits [ngxMainConf, ngxDirectConf, ngxConfTake12]]),
  ("userid", [bits [ngxHTTPMainConf, ngxHTTPSrvConf, ngxHTTPLocConf, ngxConfTake1]]),
  ("userid_domain", [bits [ngxHTTPMainConf, ngxHTTPSrvConf, ngxHTTPLocConf, ngxConfTake1]]),
  ("userid_expires", [bits [ngxHTTPMainConf, ngxHTTPSrvConf, ngxHTTPLocConf, ngxConfTake1]]),
  ("userid_flags", [bits [ngxHTTPMainConf, ngxHTTPSrvConf, ngxHTTPLocConf, ngxConfTake123]]),
  ("userid_mark", [bits [ngxHTTPMainConf, ngxHTTPSrvConf, ngxHTTPLocConf, ngxConfTake1]]),
  ("userid_name", [bits [ngxHTTPMainConf, ngxHTTPSrvConf, ngxHTTPLocConf, ngxConfTake1]]),
  ("userid_p3p", [bits [ngxHTTPMainConf, ngxHTTPSrvConf, ngxHTTPLocConf, ngxConfTake1]]),
  ("userid_path", [bits [ngxHTTPMainConf, ngxHTTPSrvConf, ngxHTTPLocConf, ngxConfTake1]]),
  ("userid_service", [bits [ngxHTTPMainConf, ngxHTTPSrvConf, ngxHTTPLocConf, ngxConfTake1]]),
  ("userinfo", [bits [ngxHTTPOIDCConf, ngxConfTake1]]),
  ("uuid_file", [bits [ngxMgmtMainConf, ngxConfNoArgs, ngxConfTake1]]),
  ("uwsgi_allow_upstream", [bits [ngxHTTPMainConf, ngxHTTPSrvConf, ngxHTTPLocConf, ngxConf1More]]),
  ("uwsgi_bind", [bits [ngxHTTPMainConf, ngxHTTPSrvConf, ngxHTTPLocConf, ngxConfTake12]]),
  ("uwsgi_bind_dynamic", [bits [ngxHTTPMainConf, ngxHTTPSrvConf, ngxHTTPLocConf, ngxConfFlag]]),
  ("uwsgi_buffer_size", [bits [ngxHTTPMainConf, ngxHTTPSrvConf, ngxHTTPLocConf, ngxConfTake1]]),
  ("uwsgi_buffering", [bits [ngxHTTPMainConf, ngxHTTPSrvConf, ngxHTTPLocConf, ngxConfFlag]]),
  ("uwsgi_buffers", [bits [ngxHTTPMainConf, ngxHTTPSrvConf, ngxHTTPLocConf, ngxConfTake2]]),
  ("uwsgi_busy_buffers_size", [bits [ngxHTTPMainConf, ngxHTTPSrvConf, ngxHTTPLocConf, ngxConfTake1]]),
  ("uwsgi_cache", [bits [ngxHTTPMainConf, ngxHTTPSrvConf, ngxHTTPLocConf, ngxConfTake1]]),
  ("uwsgi_cache_background_update", [bits [ngxHTTPMainConf, ngxHTTPSrvConf, ngxHTTPLocConf, ngxConfTake1]]),
  ("uwsgi_cache_bypass", [bits [ngxHTTPMainConf, ngxHTTPSrvConf, ngxHTTPLocConf, ngxConf1More]]),
  ("uwsgi_cache_key", [bits [ngxHTTPMainConf, ngxHTTPSrvConf, ngxHTTPLocConf, ngxConfTake1]]),
  ("uwsgi_cache_lock", [bits [ngxHTTPMainConf, ngxHTTPSrvConf, ngxHTTPLocConf, ngxConfFlag]]),
  ("uwsgi_cache_lock_age", [bits [ngxHTTPMainConf, ngxHTTPSrvConf, ngxHTTPLocConf, ngxConfTake1]]),
  ("uwsgi_cache_lock_timeout", [bits [ngxHTTPMainConf, ngxHTTPSrvConf, ngxHTTPLocConf, ngxConfTake1]]),
  ("uwsgi_cache_max_range_offset", [bits [ngxHTTPMainConf, ngxHTTPSrvConf, ngxHTTPLocConf, ngxConfTake1]]),
  ("uwsgi_cache_methods", [bits [ngxHTTPMainConf, ngxHTTPSrvConf, ngxHTTPLocConf, ngxConf1More]]),
  ("uwsgi_cache_min_uses", [bits [ngxHTTPMainConf, ngxHTTPSrvConf, ngxHTTPLocConf, ngxConfTake1]]),
  ("uwsgi_cache_path", [bits [ngxHTTPMainConf, ngxConf2More]]),
  ("uwsgi_cache_purge", [bits [ngxHTTPMainConf, ngxHTTPSrvConf, ngxHTTPLocConf, ngxConf1More]]),
  ("uwsgi_cache_revalidate", [bits [ngxHTTPMainConf, ngxHTTPSrvConf, ngxHTTPLocConf, ngxConfFlag]]),
  ("uwsgi_cache_use_stale", [bits [ngxHTTPMainConf, ngxHTTPSrvConf, ngxHTTPLocConf, ngxConf1More]]),
  ("uwsgi_cache_valid", [bits [ngxHTTPMainConf, ngxHTTPSrvConf, ngxHTTPLocConf, ngxConf1More]]),
  ("uwsgi_connect_timeout", [bits [ngxHTTPMainConf, ngxHTTPSrvConf, ngxHTTPLocConf, ngxConfTake1]]),
  ("uwsgi_force_ranges", [bits [ngxHTTPMainConf, ngxHTTPSrvConf, ngxHTTPLocConf, ngxConfFlag]]),
  ("uwsgi_hide_header", [bits [ngxHTTPMainConf, ngxHTTPSrvConf, ngxHTTPLocConf, ngxConfTake1]]),
  ("uwsgi_ignore_client_abort", [bits [ngxHTTPMainConf, ngxHTTPSrvConf, ngxHTTPLocConf, ngxConfFlag]]),
  ("uwsgi_ignore_headers", [bits [ngxHTTPMainConf, ngxHTTPSrvConf, ngxHTTPLocConf, ngxConf1More]]),
  ("uwsgi_intercept_errors", [bits [ngxHTTPMainConf, ngxHTTPSrvConf, ngxHTTPLocConf, ngxConfFlag]]),
  ("uwsgi_limit_rate", [bits [ngxHTTPMainConf, ngxHTTPSrvConf, ngxHTTPLocConf, ngxConfTake1]]),
  ("uwsgi_max_temp_file_size", [bits [ngxHTTPMainConf, ngxHTTPSrvConf, ngxHTTPLocConf, ngxConfTake1]]),
  ("uwsgi_modifier1", [bits [ngxHTTPMainConf, ngxHTTPSrvConf, ngxHTTPLocConf, ngxConfTake1]]),
  ("uwsgi_modifier2", [bits [ngxHTTPMainConf, ngxHTTPSrvConf, ngxHTTPLocConf, ngxConfTake1]]),
  ("uwsgi_next_upstream", [bits [ngxHTTPMainConf, ngxHTTPSrvConf, ngxHTTPLocConf, ngxConf1More]]),
  ("uwsgi_next_upstream_timeout", [bits [ngxHTTPMainConf, ngxHTTPSrvConf, ngxHTTPLocConf, ngxConfTake1]]),
  ("uwsgi_next_upstream_tries", [bits [ngxHTTPMainConf, ngxHTTPSrvConf, ngxHTTPLocConf, ngxConfTake1]]),
  ("uwsgi_no_cache", [bits [ngxHTTPMainConf, ngxHTTPSrvConf, ngxHTTPLocConf, ngxConf1More]]),
  ("uwsgi_param", [bits [ngxHTTPMainConf, ngxHTTPSrvConf, ngxHTTPLocConf, ngxConfTake23]]),
  ("uwsgi_pass", [bits [ngxHTTPLocConf, ngxHTTPLifConf, ngxConfTake1]]),
  ("uwsgi_pass_header", [bits [ngxHTTPMainConf, ngxHTTPSrvConf, ngxHTTPLocConf, ngxConfTake1]]),
  ("uwsgi_pass_request_body", [bits [ngxHTTPMainConf, ngxHTTPSrvConf, ngxHTTPLocConf, ngxConfFlag]]),
  ("uwsgi_pass_request_headers", [bits [ngxHTTPMainConf, ngxHTTPSrvConf, ngxHTTPLocConf, ngxConfFlag]]),
  ("uwsgi_read_timeout", [bits [ngxHTTPMainConf, ngxHTTPSrvConf, ngxHTTPLocConf, ngxConfTake1]]),
  ("uwsgi_request_buffering", [bits [ngxHTTPMainConf, ngxHTTPSrvConf, ngxHTTPLocConf, ngxConfFlag]]),
  ("uwsgi_request_dynamic", [bits [ngxHTTPMainConf, ngxHTTPSrvConf, ngxHTTPLocConf, ngxConfFlag]]),
  ("uwsgi_send_timeout", [bits [ngxHTTPMainConf, ngxHTTPSrvConf, ngxHTTPLocConf, ngxConfTake1]]),
  ("uwsgi_socket_keepalive", [bits [ngxHTTPMainConf, ngxHTTPSrvConf, ngxHTTPLocConf, ngxConfFlag]]),
  ("uwsgi_ssl_certificate", [bits [ngxHTTPMainConf, ngxHTTPSrvConf, ngxHTTPLocConf, ngxConfTake1]]),
  ("uwsgi_ssl_certificate_cache", [bits [ngxHTTPMainConf, ngxHTTPSrvConf, ngxHTTPLocConf, ngxConfTake123]]),
  ("uwsgi_ssl_certificate_key", [bits [ngxHTTPMainConf, ngxHTTPSrvConf, ngxHTTPLocConf, ngxConfTake1]]),
  ("uwsgi_ssl_ciphers", [bits [ngxHTTPMainConf, ngxHTTPSrvConf, ngxHTTPLocConf, ngxConfTake1]]),
  ("uwsgi_ssl_conf_command", [bits [ngxHTTPMainConf, ngxHTTPSrvConf, ngxHTTPLocConf, ngxConfTake2]]),
  ("uwsgi_ssl_crl", [bits [ngxHTTPMainConf, ngxHTTPSrvConf, ngxHTTPLocConf, ngxConfTake1]]),
  ("uwsgi_ssl_key_log", [bits [ngxHTTPMainConf, ngxHTTPSrvConf, ngxHTTPLocConf, ngxConfTake1]]),
  ("uwsgi_ssl_name", [bits [ngxHTTPMainConf, ngxHTTPSrvConf, ngxHTTPLocConf, ngxConfTake1]]),
  ("uwsgi_ssl_password_file", [bits [ngxHTTPMainConf, ngxHTTPSrvConf, ngxHTTPLocConf, ngxConfTake1]]),
  ("uwsgi_ssl_protocols", [bits [ngxHTTPMainConf, ngxHTTPSrvConf, ngxHTTPLocConf, ngxConf1More]]),
  ("uwsgi_ssl_server_name", [bits [ngxHTTPMainConf, ngxHTTPSrvConf, ngxHTTPLocConf, ngxConfFlag]]),
  ("uwsgi_ssl_session_reuse", [bits [ngxHTTPMainConf, ngxHTTPSrvConf, ngxHTTPLocConf, ngxConfFlag]]),
  ("uwsgi_ssl_trusted_certificate", [bits [ngxHTTPMainConf, ngxHTTPSrvConf, ngxHTTPLocConf, ngxConfTake1]]),
  ("uwsgi_ssl_verify", [bits [ngxHTTPMainConf, ngxHTTPSrvConf, ngxHTTPLocConf, ngxConfFlag]]),
  ("uwsgi_ssl_verify_depth", [bits [ngxHTTPMainConf, ngxHTTPSrvConf, ngxHTTPLocConf, ngxConfTake1]]),
  ("uwsgi_store", [bits [ngxHTTPMainConf, ngxHTTPSrvConf, ngxHTTPLocConf, ngxConfTake1]]),
  ("uwsgi_store_access", [bits [ngxHTTPMainConf, ngxHTTPSrvConf, ngxHTTPLocConf, ngxConfTake123]]),
  ("uwsgi_temp_file_write_size", [bits [ngxHTTPMainConf, ngxHTTPSrvConf, ngxHTTPLocConf, ngxConfTake1]])]

/-- analyze_nplus_latest_directives.gen.go `nginxPlusLatestDirectives`, entries 701-742. -/
def nginxPlusLatestDirectives_7 : List (String × List Nat) := [
  ("uwsgi_temp_path", [bits [ngxHTTPMainConf, ngxHTTPSrvConf, ngxHTTPLocConf, ngxConfTake1234]]),
  ("valid_referers", [bits [ngxHTTPSrvConf, ngxHTTPLocConf, ngxConf1More]]),
  ("variables_hash_bucket_size", [bits [ngxHTTPMainConf, ngxConfTake1], bits [ngxStreamMainConf, ngxConfTake1]]),
  ("variables_hash_max_size", [bits [ngxHTTPMainConf, ngxConfTake1], bits [ngxStreamMainConf, ngxConfTake1]]),
  ("worker_aio_requests", [bits [ngxEventConf, ngxConfTake1]]),
  ("worker_connections", [bits [ngxEventConf, ngxConfTake1]]),
  ("worker_cpu_affinity", [bits [ngxMainConf, ngxDirectConf, ngxConf1More]]),
  ("worker_priority", [bits [ngxMainConf, ngxDirectConf, ngxConfTake1]]),
  ("worker_processes", [bits [ngxMainConf, ngxDirectConf, ngxConfTake1]]),
  ("worker_rlimit_core", [bits [ngxMainConf, ngxDirectConf, ngxConfTake1]]),
  ("worker_rlimit_nofile", [bits [ngxMainConf, ngxDirectConf, ngxConfTake1]]),
  ("worker_shutdown_timeout", [bits [ngxMainConf, ngxDirectConf, ngxConfTake1]]),
  ("working_directory", [bits [ngxMainConf, ngxDirectConf, ngxConfTake1]]),
  ("xclient", [bits [ngxMailMainConf, ngxMailSrvConf, ngxConfFlag]]),
  ("xml_entities", [bits [ngxHTTPMainConf, ngxHTTPSrvConf, ngxHTTPLocConf, ngxConfTake1]]),
  ("xslt_last_modified", [bits [ngxHTTPMainConf, ngxHTTPSrvConf, ngxHTTPLocConf, ngxConfFlag]]),
  ("xslt_param", [bits [ngxHTTPMainConf, ngxHTTPSrvConf, ngxHTTPLocConf, ngxConfTake2]]),
  ("xslt_string_param", [bits [ngxHTTPMainConf, ngxHTTPSrvConf, ngxHTTPLocConf, ngxConfTake2]]),
  ("xslt_stylesheet", [bits [ngxHTTPLocConf, ngxConf1More]]),
  ("xslt_types", [bits [ngxHTTPMainConf, ngxHTTPSrvConf, ngxHTTPLocConf, ngxConf1More]]),
  ("zone", [bits [ngxHTTPUpsConf, ngxConfTake12], bits [ngxStreamUpsConf, ngxConfTake12]]),
  ("zone_sync", [bits [ngxStreamSrvConf, ngxConfNoArgs]]),
  ("zone_sync_buffers", [bits [ngxStreamMainConf, ngxStreamSrvConf, ngxConfTake2]]),
  ("zone_sync_connect_retry_interval", [bits [ngxStreamMainConf, ngxStreamSrvConf, ngxConfTake1]]),
  ("zone_sync_connect_timeout", [bits [ngxStreamMainConf, ngxStreamSrvConf, ngxConfTake1]]),
  ("zone_sync_interval", [bits [ngxStreamMainConf, ngxStreamSrvConf, ngxConfTake1]]),
  ("zone_sync_recv_buffer_size", [bits [ngxStreamMainConf, ngxStreamSrvConf, ngxConfTake1]]),
  ("zone_sync_server", [bits [ngxStreamSrvConf, ngxConfTake12]]),
  ("zone_sync_ssl", [bits [ngxStreamMainConf, ngxStreamSrvConf, ngxConfFlag]]),
  ("zone_sync_ssl_certificate", [bits [ngxStreamMainConf, ngxStreamSrvConf, ngxConfTake1]]),
  ("zone_sync_ssl_certificate_key", [bits [ngxStreamMainConf, ngxStreamSrvConf, ngxConfTake1]]),
  ("zone_sync_ssl_ciphers", [bits [ngxStreamMainConf, ngxStreamSrvConf, ngxConfTake1]]),
  ("zone_sync_ssl_conf_command", [bits [ngxStreamMainConf, ngxStreamSrvConf, ngxConfTake2]]),
  ("zone_sync_ssl_crl", [bits [ngxStreamMainConf, ngxStreamSrvConf, ngxConfTake1]]),
  ("zone_sync_ssl_name", [bits [ngxStreamMainConf, ngxStreamSrvConf, ngxConfTake1]]),
  ("zone_sync_ssl_password_file", [bits [ngxStreamMainConf, ngxStreamSrvConf, ngxConfTake1]]),
  ("zone_sync_ssl_protocols", [bits [ngxStreamMainConf, ngxStreamSrvConf, ngxConf1More]]),
  ("zone_sync_ssl_server_name", [bits [ngxStreamMainConf, ngxStreamSrvConf, ngxConfFlag]]),
  ("zone_sync_ssl_trusted_certificate", [bits [ngxStreamMainConf, ngxStreamSrvConf, ngxConfTake1]]),
  ("zone_sync_ssl_verify", [bits [ngxStreamMainConf, ngxStreamSrvConf, ngxConfFlag]]),
  ("zone_sync_ssl_verify_depth", [bits [ngxStreamMainConf, ngxStreamSrvConf, ngxConfTake1]]),
  ("zone_sync_timeout", [bits [ngxStreamMainConf, ngxStreamSrvConf, ngxConfTake1]])]

/-- analyze_nplus_latest_directives.gen.go:18 `nginxPlusLatestDirectives`. -/
def nginxPlusLatestDirectives : List (String × List Nat) :=
  nginxPlusLatestDirectives_0 ++ nginxPlusLatestDirectives_1 ++ nginxPlusLatestDirectives_2 ++ nginxPlusLatestDirectives_3 ++ nginxPlusLatestDirectives_4 ++ nginxPlusLatestDirectives_5 ++ nginxPlusLatestDirectives_6 ++ nginxPlusLatestDirectives_7

end Verif
