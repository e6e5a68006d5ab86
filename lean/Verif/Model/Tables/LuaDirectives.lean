import Verif.Model.Tables.Bits
/-!
# analyze_lua_directives.gen.go: `luaDirectives`, `MatchLuaLatest`

Generated from /repo/analyze_lua_directives.gen.go:18 by scripts/gen_tables.py (text translation, same order).
-/
namespace Verif

/-- analyze_lua_directives.gen.go `luaDirectives`, entries 1-88. -/
def luaDirectives_0 : List (String × List Nat) := [
  ("access_by_lua", [bits [ngxHTTPMainConf, ngxHTTPSrvConf, ngxHTTPLocConf, ngxHTTPLifConf, ngxConfTake1]]),
  ("access_by_lua_block", [bits [ngxHTTPMainConf, ngxHTTPSrvConf, ngxHTTPLocConf, ngxHTTPLifConf, ngxConfTake1]]),
  ("access_by_lua_file", [bits [ngxHTTPMainConf, ngxHTTPSrvConf, ngxHTTPLocConf, ngxHTTPLifConf, ngxConfTake1]]),
  ("access_by_lua_no_postpone", [bits [ngxHTTPMainConf, ngxConfFlag]]),
  ("balancer_by_lua_block", [bits [ngxHTTPUpsConf, ngxConfTake1]]),
  ("balancer_by_lua_file", [bits [ngxHTTPUpsConf, ngxConfTake1]]),
  ("balancer_keepalive", [bits [ngxHTTPUpsConf, ngxConfTake1]]),
  ("body_filter_by_lua", [bits [ngxHTTPMainConf, ngxHTTPSrvConf, ngxHTTPLocConf, ngxHTTPLifConf, ngxConfTake1]]),
  ("body_filter_by_lua_block", [bits [ngxHTTPMainConf, ngxHTTPSrvConf, ngxHTTPLocConf, ngxHTTPLifConf, ngxConfTake1]]),
  ("body_filter_by_lua_file", [bits [ngxHTTPMainConf, ngxHTTPSrvConf, ngxHTTPLocConf, ngxHTTPLifConf, ngxConfTake1]]),
  ("content_by_lua", [bits [ngxHTTPLocConf, ngxHTTPLifConf, ngxConfTake1]]),
  ("content_by_lua_block", [bits [ngxHTTPLocConf, ngxHTTPLifConf, ngxConfTake1]]),
  ("content_by_lua_file", [bits [ngxHTTPLocConf, ngxHTTPLifConf, ngxConfTake1]]),
  ("exit_worker_by_lua_block", [bits [ngxHTTPMainConf, ngxConfTake1]]),
  ("exit_worker_by_lua_file", [bits [ngxHTTPMainConf, ngxConfTake1]]),
  ("header_filter_by_lua", [bits [ngxHTTPMainConf, ngxHTTPSrvConf, ngxHTTPLocConf, ngxHTTPLifConf, ngxConfTake1]]),
  ("header_filter_by_lua_block", [bits [ngxHTTPMainConf, ngxHTTPSrvConf, ngxHTTPLocConf, ngxHTTPLifConf, ngxConfTake1]]),
  ("header_filter_by_lua_file", [bits [ngxHTTPMainConf, ngxHTTPSrvConf, ngxHTTPLocConf, ngxHTTPLifConf, ngxConfTake1]]),
  ("init_by_lua", [bits [ngxHTTPMainConf, ngxConfTake1]]),
  ("init_by_lua_block", [bits [ngxHTTPMainConf, ngxConfTake1]]),
  ("init_by_lua_file", [bits [ngxHTTPMainConf, ngxConfTake1]]),
  ("init_worker_by_lua", [bits [ngxHTTPMainConf, ngxConfTake1]]),
  ("init_worker_by_lua_block", [bits [ngxHTTPMainConf, ngxConfTake1]]),
  ("init_worker_by_lua_file", [bits [ngxHTTPMainConf, ngxConfTake1]]),
  ("log_by_lua", [bits [ngxHTTPMainConf, ngxHTTPSrvConf, ngxHTTPLocConf, ngxHTTPLifConf, ngxConfTake1]]),
  ("log_by_lua_block", [bits [ngxHTTPMainConf, ngxHTTPSrvConf, ngxHTTPLocConf, ngxHTTPLifConf, ngxConfTake1]]),
  ("log_by_lua_file", [bits [ngxHTTPMainConf, ngxHTTPSrvConf, ngxHTTPLocConf, ngxHTTPLifConf, ngxConfTake1]]),
  ("lua_capture_error_log", [bits [ngxHTTPMainConf, ngxConfTake1]]),
  ("lua_check_client_abort", [bits [ngxHTTPMainConf, ngxHTTPSrvConf, ngxHTTPLocConf, ngxHTTPLifConf, ngxConfFlag]]),
  ("lua_code_cache", [bits [ngxHTTPMainConf, ngxHTTPSrvConf, ngxHTTPLocConf, ngxHTTPLifConf, ngxConfFlag]]),
  ("lua_http10_buffering", [bits [ngxHTTPMainConf, ngxHTTPSrvConf, ngxHTTPLocConf, ngxHTTPLifConf, ngxConfFlag]]),
  ("lua_load_resty_core", [bits [ngxHTTPMainConf, ngxConfFlag]]),
  ("lua_malloc_trim", [bits [ngxHTTPMainConf, ngxConfTake1]]),
  ("lua_max_pending_timers", [bits [ngxHTTPMainConf, ngxConfTake1]]),
  ("lua_max_running_timers", [bits [ngxHTTPMainConf, ngxConfTake1]]),
  ("lua_need_request_body", [bits [ngxHTTPMainConf, ngxHTTPSrvConf, ngxHTTPLocConf, ngxHTTPLifConf, ngxConfFlag]]),
  ("lua_package_cpath", [bits [ngxHTTPMainConf, ngxConfTake1]]),
  ("lua_package_path", [bits [ngxHTTPMainConf, ngxConfTake1]]),
  ("lua_regex_cache_max_entries", [bits [ngxHTTPMainConf, ngxConfTake1]]),
  ("lua_regex_match_limit", [bits [ngxHTTPMainConf, ngxConfTake1]]),
  ("lua_sa_restart", [bits [ngxHTTPMainConf, ngxConfFlag]]),
  ("lua_shared_dict", [bits [ngxHTTPMainConf, ngxConfTake2]]),
  ("lua_socket_buffer_size", [bits [ngxHTTPMainConf, ngxHTTPSrvConf, ngxHTTPLocConf, ngxHTTPLifConf, ngxConfTake1]]),
  ("lua_socket_connect_timeout", [bits [ngxHTTPMainConf, ngxHTTPSrvConf, ngxHTTPLocConf, ngxHTTPLifConf, ngxConfTake1]]),
  ("lua_socket_keepalive_timeout", [bits [ngxHTTPMainConf, ngxHTTPSrvConf, ngxHTTPLocConf, ngxHTTPLifConf, ngxConfTake1]]),
  ("lua_socket_log_errors", [bits [ngxHTTPMainConf, ngxHTTPSrvConf, ngxHTTPLocConf, ngxHTTPLifConf, ngxConfFlag]]),
  ("lua_socket_pool_size", [bits [ngxHTTPMainConf, ngxHTTPSrvConf, ngxHTTPLocConf, ngxHTTPLifConf, ngxConfTake1]]),
  ("lua_socket_read_timeout", [bits [ngxHTTPMainConf, ngxHTTPSrvConf, ngxHTTPLocConf, ngxHTTPLifConf, ngxConfTake1]]),
  ("lua_socket_send_lowat", [bits [ngxHTTPMainConf, ngxHTTPSrvConf, ngxHTTPLocConf, ngxHTTPLifConf, ngxConfTake1]]),
  ("lua_socket_send_timeout", [bits [ngxHTTPMainConf, ngxHTTPSrvConf, ngxHTTPLocConf, ngxHTTPLifConf, ngxConfTake1]]),
  ("lua_ssl_certificate", [bits [ngxHTTPMainConf, ngxHTTPSrvConf, ngxHTTPLocConf, ngxConfTake1]]),
  ("lua_ssl_certificate_key", [bits [ngxHTTPMainConf, ngxHTTPSrvConf, ngxHTTPLocConf, ngxConfTake1]]),
  ("lua_ssl_ciphers", [bits [ngxHTTPMainConf, ngxHTTPSrvConf, ngxHTTPLocConf, ngxConfTake1]]),
  ("lua_ssl_conf_command", [bits [ngxHTTPMainConf, ngxHTTPSrvConf, ngxHTTPLocConf, ngxConfTake2]]),
  ("lua_ssl_crl", [bits [ngxHTTPMainConf, ngxHTTPSrvConf, ngxHTTPLocConf, ngxConfTake1]]),
  ("lua_ssl_key_log", [bits [ngxHTTPMainConf, ngxHTTPSrvConf, ngxHTTPLocConf, ngxConfTake1]]),
  ("lua_ssl_protocols", [bits [ngxHTTPMainConf, ngxHTTPSrvConf, ngxHTTPLocConf, ngxConf1More]]),
  ("lua_ssl_trusted_certificate", [bits [ngxHTTPMainConf, ngxHTTPSrvConf, ngxHTTPLocConf, ngxConfTake1]]),
  ("lua_ssl_verify_depth", [bits [ngxHTTPMainConf, ngxHTTPSrvConf, ngxHTTPLocConf, ngxConfTake1]]),
  ("lua_thread_cache_max_entries", [bits [ngxHTTPMainConf, ngxConfTake1]]),
  ("lua_transform_underscores_in_response_headers", [bits [ngxHTTPMainConf, ngxHTTPSrvConf, ngxHTTPLocConf, ngxHTTPLifConf, ngxConfFlag]]),
  ("lua_upstream_skip_openssl_default_verify", [bits [ngxHTTPLocConf, ngxHTTPLifConf, ngxConfFlag]]),
  ("lua_use_default_type", [bits [ngxHTTPMainConf, ngxHTTPSrvConf, ngxHTTPLocConf, ngxHTTPLifConf, ngxConfFlag]]),
  ("lua_worker_thread_vm_pool_size", [bits [ngxHTTPMainConf, ngxConfTake1]]),
  ("precontent_by_lua_block", [bits [ngxHTTPMainConf, ngxHTTPSrvConf, ngxHTTPLocConf, ngxHTTPLifConf, ngxConfBlock, ngxConfNoArgs]]),
  ("precontent_by_lua_file", [bits [ngxHTTPMainConf, ngxHTTPSrvConf, ngxHTTPLocConf, ngxHTTPLifConf, ngxConfTake1]]),
  ("precontent_by_lua_no_postpone", [bits [ngxHTTPMainConf, ngxConfFlag]]),
  ("proxy_ssl_certificate_by_lua_block", [bits [ngxHTTPLocConf, ngxHTTPLifConf, ngxConfBlock, ngxConfNoArgs]]),
  ("proxy_ssl_certificate_by_lua_file", [bits [ngxHTTPLocConf, ngxHTTPLifConf, ngxConfTake1]]),
  ("proxy_ssl_verify_by_lua_block", [bits [ngxHTTPLocConf, ngxHTTPLifConf, ngxConfBlock, ngxConfNoArgs]]),
  ("proxy_ssl_verify_by_lua_file", [bits [ngxHTTPLocConf, ngxHTTPLifConf, ngxConfTake1]]),
  ("rewrite_by_lua", [bits [ngxHTTPMainConf, ngxHTTPSrvConf, ngxHTTPLocConf, ngxHTTPLifConf, ngxConfTake1]]),
  ("rewrite_by_lua_block", [bits [ngxHTTPMainConf, ngxHTTPSrvConf, ngxHTTPLocConf, ngxHTTPLifConf, ngxConfTake1]]),
  ("rewrite_by_lua_file", [bits [ngxHTTPMainConf, ngxHTTPSrvConf, ngxHTTPLocConf, ngxHTTPLifConf, ngxConfTake1]]),
  ("rewrite_by_lua_no_postpone", [bits [ngxHTTPMainConf, ngxConfFlag]]),
  ("server_rewrite_by_lua_block", [bits [ngxHTTPMainConf, ngxHTTPSrvConf, ngxConfTake1]]),
  ("server_rewrite_by_lua_file", [bits [ngxHTTPMainConf, ngxHTTPSrvConf, ngxConfTake1]]),
  ("set_by_lua", [bits [ngxHTTPSrvConf, ngxHTTPSifConf, ngxHTTPLocConf, ngxHTTPLifConf, ngxConf2More]]),
  ("set_by_lua_block", [bits [ngxHTTPSrvConf, ngxHTTPSifConf, ngxHTTPLocConf, ngxHTTPLifConf, ngxConfTake2]]),
  ("set_by_lua_file", [bits [ngxHTTPSrvConf, ngxHTTPSifConf, ngxHTTPLocConf, ngxHTTPLifConf, ngxConf2More]]),
  ("ssl_certificate_by_lua_block", [bits [ngxHTTPMainConf, ngxHTTPSrvConf, ngxConfTake1]]),
  ("ssl_certificate_by_lua_file", [bits [ngxHTTPMainConf, ngxHTTPSrvConf, ngxConfTake1]]),
  ("ssl_client_hello_by_lua_block", [bits [ngxHTTPMainConf, ngxHTTPSrvConf, ngxConfTake1]]),
  ("ssl_client_hello_by_lua_file", [bits [ngxHTTPMainConf, ngxHTTPSrvConf, ngxConfTake1]]),
  ("ssl_session_fetch_by_lua_block", [bits [ngxHTTPMainConf, ngxConfTake1]]),
  ("ssl_session_fetch_by_lua_file", [bits [ngxHTTPMainConf, ngxConfTake1]]),
  ("ssl_session_store_by_lua_block", [bits [ngxHTTPMainConf, ngxConfTake1]]),
  ("ssl_session_store_by_lua_file", [bits [ngxHTTPMainConf, ngxConfTake1]])]

/-- analyze_lua_directives.gen.go:18 `luaDirectives`. -/
def luaDirectives : List (String × List Nat) :=
  luaDirectives_0

end Verif
